R='Model/Reverse.lean'; I='Model/IvUtils.lean'; E='Model/Sde.lean'; Z='Model/SdmSandia.lean'; D='Model/Sdm.lean'
MUTS=[
('m499',R,'bisectLoop','if (fm < 0) = negA then xm else xa','if (fm < 0) = negA then xa else xm','wrong half kept','bracket keeps the sign change'),
('m500',R,'bisectLoop','xtol + rtol * Fl.abs xm','rtol * Fl.abs xm','xtol dropped','accuracy xtol'),
('m501',R,'ghiFromPoa1','if poa_global ≤ 0 then (0, true, 0)','if poa_global ≤ 0 then (nan, false, 0)','NaN at night','zero POA gives zero GHI'),
('m502',R,'ghiFromPoa1','maximum 10 (1.25 * ghi_clear)','maximum 10 ghi_clear','upper limit 1.25 dropped','GHI at most 1.25 clear'),
('m503',R,'ghiFromPoa','if xtol ≤ 0','if xtol < 0','xtol 0 accepted','xtol must be positive'),
('m504',R,'poaFromGhi','irrads.poa_global','irrads.poa_direct','wrong component','round trip'),
('m505',R,'dirindex','if dni_dirindex < 0 then 0 else dni_dirindex','dni_dirindex','clip dropped','no negative DNI'),
('m506',R,'dirindex','dirint n ghi_clear zenith','dirint n ghi zenith','same input twice','ratio to clear sky DIRINT'),
('m507',R,'gtiGte90KtPrime','65 < c.aoi j','60 < c.aoi j','window 60..80','average over aoi 65..80'),
('m508',R,'gtiGte90KtPrime','fun j => day j ∧ aoi_65_80 j ∧ morning j','fun j => aoi_65_80 j ∧ morning j','days not separated','average of the same day'),
('m509',R,'gtiGte90KtPrime','afternoon p then kt_prime_pm_avg','afternoon p then kt_prime_am_avg','morning average in the afternoon','half day average'),
('m510',R,'gtiGte90','1 + cos_surface_tilt + c.albedo * (1 - cos_surface_tilt)','1 + cos_surface_tilt','ground term dropped','isotropic inversion of dhi'),
('m511',R,'gtiDirint','fun p => if aoi_lt_90 p then dhi p else back.2.2 p','fun p => if aoi_lt_90 p then dhi p else back.1 p','ghi for dhi behind the panel','outputs behind the panel'),
('m512',R,'gtiStep','let dhi : Series := fun p => ghi p - dni p * cos_zenith p','let dhi : Series := fun p => ghi p - dni p','cosine dropped','closure'),
('m513',I,'nd_u1','| 2 => a0 * a1 * a3 + a0 * a1 * a4','| 2 => a0 * a1 * a3 + a0 * a1 * a3','weight typo','exact for quartics'),
('m514',I,'nd_left','(a1 - a0) * (a1 - a2) * (a1 - a3) * (a1 - a4)','(a0 - a1) * (a1 - a2) * (a1 - a3) * (a1 - a4)','sign','exact for quartics'),
('m515',I,'numdiff','i < 2 ∨ n ≤ i + 2','i < 1 ∨ n ≤ i + 2','boundary','NaN at the first two points'),
('m516',I,'rectifyIvCurve','0 ≤ p.1 ∧ 0 ≤ p.2','0 ≤ p.1','negative current kept','only nonnegative points'),
('m517',I,'rectifyIvCurve','¬ isnan p.1 ∧ ¬ isnan p.2','¬ isnan p.1','NaN current kept','NaN removed'),
('m518',I,'npRound','if Even ⌊y⌋ then ⌊y⌋ else ⌊y⌋ + 1','⌊y⌋ + 1','half up','half to even'),
('m519',I,'qSlope0','0.5 * qLeft x y i + 0.5 * qRight n x y i','qLeft x y i + qRight n x y i','mean halved','harmonic mean slope'),
('m520',I,'qSlope1','2 * qDelta x y 0 - qSlope0 n x y 1','2 * qDelta x y 0 - qSlope0 n x y 0','wrong neighbour','end slope'),
('m521',I,'qXi','x (i + 1) + qAa n x y i','x i + qAa n x y i','wrong end','knot inside the interval'),
('m522',I,'qSbar','(2 * qDelta x y i - qSlope n x y (i + 1))','(2 * qDelta x y i - qSlope n x y i)','wrong slope','spline continuous'),
('m523',I,'qKnotRow','0.5 * qEta n x y i * (qXi n x y i - x i) ^ 2','qEta n x y i * (qXi n x y i - x i) ^ 2','half dropped','spline continuous at knot'),
('m524',I,'schumakerQspline','tmp.mergeSort qKeyLe','tmp','sort dropped','knots sorted'),
('m525',I,'schumakerQspline','(ivals.filter (fun i => qMaskZ n x y i)).map (qKnotRow n x y)','(ivals.filter (fun i => qMaskW n x y i)).map (qKnotRow n x y)','mask w twice','one knot per interval'),
('m526',I,'idxMax','f j ≤ f k','f k ≤ f j','min for max','maximum power'),
('m527',I,'astmE1036','isc_est * 0.001','isc_est * 0.01','threshold','voc from the closest point'),
('m528',I,'astmE1036','pmp / (voc * isc)','pmp / (voc_est * isc_est)','estimates','ff = pmp/(voc isc)'),
('m529',I,'astmE1036','.map Prod.swap','','unswapped axes','voc from fit of v against i'),
('m530',I,'mpRoots','|z.im| < 1e-5','True','complex roots kept','real roots only'),
('m531',E,'findMp','.ok (voltage idx, current idx)','.ok (current idx, voltage idx)','swapped','maximum power point'),
('m532',E,'beta01Loop','if coef.1 < 0 then','if coef.1 ≤ 0 then','boundary','strictly negative slope'),
('m533',E,'sandiaBeta0Beta1','isnan beta0 ∨ isnan beta1','isnan beta0 ∧ isnan beta1','and for or','NaN raises'),
('m534',E,'sandiaBeta3Beta4','([1, voltage k, current k]','([1, current k, voltage k]','columns swapped','beta3 multiplies voltage'),
('m535',E,'expIdx','ilim * i_sc < beta0','0 < beta0','threshold ilim dropped','points selected'),
('m536',E,'calcI0','(Fl.exp ((voltage + rs * current) / nNsVth) - 1)','Fl.exp ((voltage + rs * current) / nNsVth)','-1 dropped','diode equation'),
('m537',E,'sandiaSimpleParams','(1 + gsh * rs) * beta0','beta0','factor dropped','iph'),
('m538',E,'sandiaSimpleParams','io_vmp ≤ 0 ∧ io_voc ≤ 0','io_vmp ≤ 0 ∨ io_voc ≤ 0','or for and','one positive estimate is enough'),
('m539',E,'sandiaSimpleParams','if 0 < io_vmp then io_vmp else io_voc','io_voc','negative io returned','io positive'),
('m540',E,'tmpint','fin (1 / 3)','fin (1 / 2)','third','exact integral'),
('m541',E,'scc2','- cumsumFrom (tmpint v c) 5 k','- cumsumFrom (tmpint v c) 4 k','overlap','co-content additive'),
('m542',E,'scc','cumsumFrom (tmpint v c) (xn - 5) k','cumsumFrom (tmpint v c) (xn - 6) k','overlap','co-content additive'),
('m543',E,'cocontentParams','isc / (betan * nsvth)','voc / (betan * nsvth)','voc for isc','iph'),
('m544',E,'cocontentParams','let betagp := b3 * 2','let betagp := b3','factor','shunt'),
('m545',E,'cocontentRegress','1 * ev1.1 + 0 * ev1.2','-1 * ev1.1 + 0 * ev1.2','no rotation','second axis orthogonal'),
('m546',E,'matMb','r00 * r11 + r01 * r10','r00 * r11 - r01 * r10','sign','change of variables'),
('m547',E,'matMa','2 * sv * mv, 0]','sv * mv, 0]','factor','change of variables'),
('m548',E,'fitSandiaCocontent','if nv < 6','if nv < 5','boundary','at least six points'),
('m549',Z,'phiArg','Fl.exp (rsh * (iph + io - imp) / a)','Fl.exp (rsh * (iph + io) / a)','current dropped','phi satisfies W equation'),
('m550',Z,'rsFormula','- vmp / imp','','voltage dropped','rs meets mpp'),
('m551',Z,'iphFormula','+ isc * rs / rsh','','shunt dropped','iph meets isc'),
('m552',Z,'updateIo','idx 9 io','idx 10 io','one pass more','at most nine passes'),
('m553',Z,'updateIo','if idx = [] then .error .valueError else','','no curves accepted','no curve raises'),
('m554',Z,'goodR','io ≤ 0','io < 0','boundary','positive io'),
('m555',Z,'goodR','(rsh < rs ∨ isnan rs)','(isnan rs)','rs<rsh dropped','rs below rsh'),
('m556',Z,'linearIsc','fin 0.05','fin 0.5','tolerance','5 percent linear isc'),
('m557',Z,'initCurve','Fl.exp (-voc / a)','Fl.exp (voc / a)','sign','initial io'),
('m558',Z,'refineStep','let io := put u new s.io','let io := new','all overwritten','unselected keep io'),
('m559',Z,'refineStep','put s.u (fun k => rsFormula','put (fun _ => True) (fun k => rsFormula','all updated','unselected keep rs'),
('m560',Z,'updateLoop','∃ x ∈ changes prev st, eps1 ≤ x','∃ x ∈ changes prev st, eps1 < x','boundary','stops when all changes below eps'),
('m561',Z,'changes','change s.pmp.absmax p.pmp.absmax','change s.pmp.absmax p.vmp.absmax','wrong quantity','change of power'),
('m562',Z,'checkConverge','pctErr (result k).p_mp (c.imp k * c.vmp k)','pctErr (result k).p_mp (c.imp k)','wrong reference','power error'),
('m563',Z,'fitRs','s.u k ∧ 400 < c.ee k','400 < c.ee k','filter dropped','mean over selected'),
('m564',Z,'fitIL','alpha_sc * (tc k - K.T0)','alpha_sc * tc k','reference','IL at reference'),
('m565',Z,'fitIo','3 * Fl.log (tck k / tok)','Fl.log (tck k / tok)','power 3','io model'),
('m566',Z,'extractDesoto','(K.E0 / c.ee k, s.rsh k)','(c.ee k / K.E0, s.rsh k)','inverted','rsh inverse to irradiance'),
('m567',Z,'rshGuess','else - npMax ((all.map s.rsh).map fun x => -x)','else npMax (all.map s.rsh)','max for min','starting point'),
('m568',Z,'desotoDiode','iv.v_oc k - beta_voc * (iv.tc k - K.T0)','iv.v_oc k','temperature','diode fit'),
('m569',Z,'fitDesotoSandia','if isnan n0 then .error .runtimeError','if False then .error .runtimeError','NaN accepted','NaN diode factor raises'),
('m570',Z,'pvsystGammaFit','alpha.getD 4 nan / alpha.getD 3 nan ^ 2','alpha.getD 4 nan / alpha.getD 3 nan','square dropped','mu gamma'),
('m571',Z,'fitPvsystSandia','isnan g.1 ∨ isnan g.2','isnan g.1','NaN mu accepted','NaN raises'),
('m572',D,'desotoSystem','let y1 := (-p.IL)','let y1 := s.Isc - p.IL','current at open circuit','open circuit equation'),
('m573',D,'desotoSystem','s.alpha_sc * (T2 - s.Tref)','s.alpha_sc * T2','reference','fifth equation'),
('m574',D,'desotoStart','log1p ((i_sc - i_mp) / Io_0) - v_mp','log1p ((i_sc - i_mp) / Io_0)','v_mp dropped','start'),
('m575',D,'guessStep','if key = "Rs_0" then .ok { u with Rs := x }','if key = "Rs_0" then .ok { u with Rsh := x }','wrong slot','init guess'),
('m576',D,'guessStep','else .error .valueError','else .ok u','unknown accepted','unknown key raises'),
('m577',D,'fitDesoto','else .error .runtimeError','else .ok ⟨r.2.IL, r.2.Io, r.2.Rs, r.2.Rsh, r.2.a, alpha_sc, EgRef, dEgdT, irrad_ref, temp_ref⟩','failure ignored','failure raises'),
('m578',D,'fitDesotoBatzelis','(1 + Rs0 / Rsh0) * i_sc','i_sc','factor','iph'),
('m579',D,'fitDesotoBatzelis','i_sc * (1 - 1 / w0) - i_mp','i_sc - i_mp','factor','rsh'),
('m580',D,'centeredDifference','(b - a) / 2 / dx','(b - a) / dx','half','derivative'),
('m581',D,'pvsystTemperatureCoeff','.ok (g / pmp)','.ok g','not relative','relative'),
('m582',D,'fitTempco','f.2 + f.1 * 25','f.2','value at 25','relative at 25'),
('m583',D,'fitShunt','base * (1 - e) + Rsh0 * e','base','ref','Rshref at 1000'),
('m584',D,'fitSeries','getD 1 nan','getD 2 nan','wrong coefficient','Rs'),
('m585',D,'fitGamma','m.v_mp + m.i_mp * R_s - m.v_oc','m.v_mp - m.v_oc','Rs drop','exact data recovers gamma'),
('m586',D,'fitPhotocurrent','m.g / 1000 * alpha_sc * (m.t - 25)','alpha_sc * (m.t - 25)','scale','exact data recovers IL'),
('m587',D,'gammaEst','3 * Fl.log (Tcell_K / Tref_K)','Fl.log (Tcell_K / Tref_K)','cube','exact data'),
('m588',D,'fitIec','| _ => .error .valueError','| _ => .ok 0','accepted','exactly one STC row'),
('m589',D,'fitIec','fitGamma lib tStc','fitGamma lib ms','all temperatures','rows near 25C'),
('m590',D,'takeKeys','.error (.keyError k)','.ok []','truncation','missing key raises'),
('m591',D,'fitCecSam','("Nser", .num cells_in_series)','("Nser", .num temp_ref)','wrong value','inputs handed over'),
]
