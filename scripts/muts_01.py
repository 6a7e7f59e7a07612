I='Model/Inverter.lean'; S='Model/Shading.lean'; N='Model/SnowSoiling.lean'; R='Model/Irradiance.lean'
D='Model/Decomposition.lean'; T='Model/ToolsMisc.lean'; L='Model/Location.lean'; P='Model/PvArray.lean'; W='Model/Scaling.lean'
MUTS=[
('m001',I,'sandiaLimits','if p_dc < Pso','if p_dc ≤ Pso','night-tare branch uses <= instead of <','C01: tare applies strictly below Pso; at p_dc = Pso the power is the (clipped) efficiency curve'),
('m002',I,'sandiaLimits','-1 * Fl.abs Pnt','-1 * Pnt','abs() on Pnt dropped','C01: output at night is -|Pnt|, never positive'),
('m003',I,'sandiaLimits','minimum Paco power_ac','power_ac','AC limit dropped','C01: output never exceeds Paco'),
('m004',I,'sandiaEff','q.C3 * (v_dc - q.Vdco)','q.C2 * (v_dc - q.Vdco)','C uses C2 instead of C3','C02: efficiency polynomial uses C3 in C'),
('m005',I,'sandiaMulti','(0 * power_dc)','(0 * power_dc + 1)','accumulator starts at 1','C03: one MPPT input agrees with sandia'),
('m006',I,'sandiaMultiLoop','vp.2 / power_dc * sandiaEff vp.1 power_dc q','sandiaEff vp.1 vp.2 q','each input evaluated at its own dc power instead of weighting','C03: splitting power over equal-voltage inputs changes nothing'),
('m007',I,'adr','nanmax [q.Vmax, q.Vdcmax, q.MPPTHi] * (1 + vtol)','nanmax [q.Vmax, q.Vdcmax] * (1 + vtol)','MPPTHi dropped from upper voltage limit','C04: NaN exactly outside the voltage window'),
('m008',I,'adr','v_lim_upper < v_dc ∨ v_dc < v_lim_lower','v_lim_upper < v_dc ∧ v_dc < v_lim_lower','or -> and in voltage limit test','C04: NaN exactly outside the voltage window'),
('m009',I,'adr','(eqv vdc 0) p_nt power_ac','(eqv vdc 0) 0 power_ac','zero voltage gives 0 instead of the tare','C04: zero voltage gives -|Pnt|'),
('m010',I,'pvwatts','maximum 0 power_ac','power_ac','lower clip at 0 dropped','C05: 0 <= pac'),
('m011',I,'pvwatts','if ¬ eqv pdc 0 then 0.0059 / zeta else 0','0.0059 / zeta','guard against pdc = 0 dropped','C05: zero dc gives zero ac, not NaN'),
('m012',I,'pvwatts','minimum pac0 power_ac','minimum pdc0 power_ac','clips to the dc limit','C05: pac <= eta_nom * pdc0'),
('m013',I,'simpleEfficiency','2 * c / (-b - disc)','2 * c / (-b + disc)','wrong root of the quadratic','C06: input = output + losses'),
('m014',R,'aoiProjection','clip projection (-1) 1','projection','clip dropped (exact reals)','C17: result in [-1,1] (equivalent over the reals)'),
('m015',R,'aoiProjection','cosd (solar_azimuth - surface_azimuth)','sind (solar_azimuth - surface_azimuth)','cos -> sin of the azimuth difference','C17: projection is the dot product of the unit vectors'),
('m016',R,'beamComponent','maximum (dni * aoiProjection surface_tilt surface_azimuth solar_zenith solar_azimuth) 0','(dni * aoiProjection surface_tilt surface_azimuth solar_zenith solar_azimuth)','clip at zero dropped','C18: beam component never negative'),
('m017',R,'groundDiffuse','(1 - Fl.cos (radians surface_tilt))','(1 + Fl.cos (radians surface_tilt))','ground view factor sign','C19: horizontal surface sees no ground'),
('m018',R,'haydaviesRb','maximum (dhi * term1 * term2) 0','(dhi * term1 * term2)','max dropped on the isotropic part','C20: sky diffuse components non-negative'),
('m019',R,'projectionRatio','0.01745','0.1','lower bound of cos zenith changed','C20 closed form/continuity of haydavies at low sun'),
('m020',R,'perezBin','else if (1.065 : Fl) ≤ eps','else if (1.065 : Fl) < eps','bin edge 1.065 exclusive','C21: eps in [1.065,1.23) is bin 1'),
('m021',R,'perez','npwhere (isnan airmass) 0 poa_sky_diffuse','poa_sky_diffuse','NaN airmass no longer gives zero','C21: NaN airmass -> 0'),
('m022',R,'perezDriesse','clip F1 0 0.9','clip F1 0 1','upper clip of F1 0.9 -> 1','C22: isotropic part at least 10 percent'),
('m023',R,'getSkyDiffuse','model = "klucher" ∨ model = "king"','model = "klucher"','king accepted with return_components','C19/C22: return_components rejected for klucher and king'),
('m024',R,'poaComponents','maximum (dni * Fl.cos (radians aoi)) 0','dni * Fl.cos (radians aoi)','direct clip dropped','C18: poa_direct non-negative'),
('m025',R,'poaComponents','poa_direct + poa_diffuse','poa_direct + sky.poa_sky_diffuse','ground left out of poa_global','C18: global = direct + sky + ground'),
('m026',R,'klucher','npwhere (isnan F) 0 F','F','0/0 guard dropped','C20: ghi=0 gives finite result'),
('m027',R,'calcZeta','npwhere (eqv dhi 0) 0 zeta','zeta','dhi=0 guard dropped','C22: dhi = dni = 0 gives 0 not NaN'),
('m028',R,'reindl','npwhere (eqv ghi 0) 0 (HB / ghi)','(HB / ghi)','ghi=0 guard dropped','C20: reindl finite at ghi=0'),
('m029',S,'singleaxis','if 90 < apparent_zenith then nan else omega_ideal','omega_ideal','night mask of omega dropped (outputs still masked)','none: outputs are masked anyway (equivalent mutant)'),
('m030',S,'singleaxis','npwhere (90 < apparent_zenith) nan x','x','output night mask dropped','C13: NaN when the sun is below the horizon'),
('m031',S,'singleaxis','clip tracker_theta max_angle.lims.1 max_angle.lims.2','clip tracker_theta (-max_angle.lims.2) max_angle.lims.2','asymmetric pair ignored','C14: rotation within (min,max)'),
('m032',S,'backtrackTheta','-sign omega_ideal * arccos temp','sign omega_ideal * arccos temp','sign of correction','C15: backtracking never increases |rotation|; no shading'),
('m033',S,'backtrackTheta','npwhere (temp < 1)','npwhere (1 < temp)','condition reversed','C15'),
('m034',S,'calcSurfaceOrientation','let surface_azimuth := Fl.mod surface_azimuth 360','let surface_azimuth := surface_azimuth','mod 360 dropped','C16: azimuth in [0,360)'),
('m035',S,'calcSurfaceOrientation','(axis_azimuth - 90)','(axis_azimuth + 90)','flat-panel azimuth convention flipped','C16: horizontal tracker reports axis_azimuth - 90'),
('m036',S,'unitNormal','cT * cTh','cT * sTh','z component wrong','C16: normal orthogonal rotation'),
('m037',S,'calcCrossAxisTilt','axis_azimuth - slope_azimuth','slope_azimuth - axis_azimuth','azimuth difference swapped','C41: cross axis tilt sign'),
('m038',S,'calcAxisTilt','cosd delta_gamma','sind delta_gamma','cos -> sin','C41: axis along slope has slope tilt'),
('m039',S,'shadedFraction1d','clip (tAsterisk projected_solar_zenith shaded_row_rotation shading_row_rotation collector_width\n    pitch surface_to_axis_offset cross_axis_slope) 0 1','maximum (tAsterisk projected_solar_zenith shaded_row_rotation shading_row_rotation collector_width\n    pitch surface_to_axis_offset cross_axis_slope) 0','upper clip dropped','C30: shaded fraction in [0,1]'),
('m040',S,'tAsterisk','pitch / collector_width * cosd thetaS_rotation_diff','collector_width / pitch * cosd thetaS_rotation_diff','ratio inverted','C30/C42: fraction is 1 - pitch*cos(..)/..'),
('m041',S,'directMartinez','Fl.ceil shaded_blocks','Fl.floor shaded_blocks','ceil -> floor of shaded blocks','C31: any shading costs a whole block'),
('m042',S,'directMartinez','(1 + total_blocks)','total_blocks','off by one blocks','C31'),
('m043',S,'maskingAngle','(1 - slant_height) * sind','slant_height * sind','slant height inverted in numerator','C42: top of the row sees no masking'),
('m044',S,'maskingAnglePassias','npwhere (isfinite psi_avg) psi_avg 0','psi_avg','NaN guard dropped','C42: tilt 0 gives 0'),
('m045',S,'skyDiffusePassias','masking_angle / 2','masking_angle','half angle dropped','C42'),
('m046',N,'fullyCoveredNrel','threshold_snowfall < hourly_snow_rate i','threshold_snowfall ≤ hourly_snow_rate i','strict -> non-strict','C07: covered iff rate strictly above threshold'),
('m047',N,'fullyCoveredNrel','| none => setFirst hourly_snow_rate 0','| none => hourly_snow_rate','first rate left NaN when no freq','C07 (NaN compares false: equivalent for non-negative threshold)'),
('m048',N,'fullyCoveredNrel','threshold_depth ≤ d i','threshold_depth < d i','depth test strict','C07'),
('m049',N,'slideAmt','let slide_amt := setFirst slide_amt 0','let slide_amt := slide_amt','first slide amount left NaN','C08: no NaN'),
('m050',N,'slideAmt','setMask slide_amt new_snowfall (fun _ => 0)','slide_amt','slides on the day of fresh snow','C08: coverage 1 at new snow'),
('m051',N,'coverageNrel','let snow_coverage := ffill snow_coverage','let snow_coverage := snow_coverage','ffill dropped','C08'),
('m052',N,'coverageNrel','clipLower snow_coverage 0','snow_coverage','lower clip dropped','C08: coverage >= 0'),
('m053',N,'coverageNrel','groupCumsum sliding_period_ID slide_amt','npCumsum slide_amt','cumulative over all periods','C09: sliding restarts at new snow'),
('m054',N,'dcLossNrel','Fl.ceil (snow_coverage * num_strings) / num_strings','snow_coverage','no rounding to strings','C10'),
('m055',N,'townsendEffectiveSnow','npwhere (0 < snow_events) effective_snow 0','effective_snow','no-event guard dropped','C10: no events -> no snow'),
('m056',N,'roll1','(i + n - 1) % n','i - 1','wrap around of January dropped','C10: previous month of January is December'),
('m057',N,'lossTownsend','clip loss_fraction 0 1','minimum loss_fraction 1','lower clip dropped','C10: in [0,1]'),
('m058',N,'hsuMass','cleaning_threshold ≤ accum_rain i','cleaning_threshold < accum_rain i','strict cleaning threshold','C11: rain equal to the threshold cleans'),
('m059',N,'hsuMass','let mass_removed := setFirst mass_removed 0','let mass_removed := mass_removed','initial zero dropped','C11: no NaN before the first cleaning'),
('m060',N,'tiltedMassRate','maximum (pm10 i - pm2_5 i) 0','(pm10 i - pm2_5 i)','coarse fraction may go negative','C11: mass never decreases between cleanings'),
('m061',N,'kimber','setMask cleaning wash soiling','cleaning','manual wash ignored','C12'),
('m062',N,'kimber','if soiling i < max_soiling then soiling i else max_soiling','soiling i','max cap dropped','C12'),
('m063',N,'graceWindows','cleaning_threshold < accumulated_rainfall i','cleaning_threshold ≤ accumulated_rainfall i','strictness of rain event','C12'),
('m064',D,'erbsDf','0.22 < kt ∧ kt ≤ 0.8','0.22 < kt ∧ kt < 0.8','upper boundary excluded','C24: kt = 0.8 uses the quartic'),
('m065',D,'finishDf','max_zenith < zenith ∨ ghi < 0 ∨ dni < 0','max_zenith < zenith ∨ dni < 0','negative ghi not treated as bad','C24'),
('m066',D,'finishDf','npwhere bad_values ghi dhi','dhi','dhi not reset to ghi','C24: dhi + dni cos z = ghi'),
('m067',D,'dniFrom','if dni < 0 then nan else dni','dni','negative dni kept','C28'),
('m068',D,'dniFrom','zenith_threshold_for_zero_dni ≤ zenith ∧ ¬ eqv dni 0','zenith_threshold_for_zero_dni < zenith ∧ ¬ eqv dni 0','threshold exclusive','C28'),
('m069',D,'dniFrom','∧ zenith < zenith_threshold_for_zero_dni\n        ∧ max_dni < dni','∧ max_dni < dni','upper zenith of clearsky limit dropped','C28 (equivalent unless dni NaN/0)'),
('m070',D,'ktPrimeBin','0.24 ≤ k ∧ k < 0.4','0.24 < k ∧ k < 0.4','bin edge dropped','C26: every kt in [0,1] has a bin'),
('m071',D,'zenithBin','if 80 ≤ z then 6','if 80 ≤ z ∧ z < 90 then 6','bin bounded at 90','C26'),
('m072',D,'deltaKtPrime','kt_prime (i - 1)','kt_prime i','previous sample wrong','C26'),
('m073',D,'gtiPass','diff_abs p < s.best_diff p','s.best_diff p < diff_abs p','keeps the worst','C29'),
('m074',D,'gtiPass','maximum 1 (s.poa_global_i p','maximum 0 (s.poa_global_i p','floor 1 -> 0','C29: next guess at least 1'),
('m075',D,'gtiLoop','s.best_diff p ≤ 1','s.best_diff p ≤ 10','loose convergence','C29'),
('m076',D,'clearskyIndex','let k := npwhere input_is_nan nan k','let k := k','NaN restoration dropped','C23: NaN in -> NaN out'),
('m077',D,'clearnessIndex','minimum kt max_clearness_index','kt','upper clip dropped','C23'),
('m078',D,'completeIrradiance','⟨g, g - n * cosd solar_zenith, n⟩','⟨g, g + n * cosd solar_zenith, n⟩','sign','C28: closure'),
('m079',D,'disc','max_zenith < solar_zenith ∨ ghi < 0 ∨ dni < 0','max_zenith < solar_zenith ∨ ghi < 0','negative dni not zeroed','C25: dni >= 0'),
('m080',D,'discKn','minimum airmass max_airmass','airmass','airmass cap dropped','C25: airmass out <= max'),
('m081',D,'campbellNorman','1 - rpow transmittance airmass','1 - transmittance','power dropped','C27'),
('m082',D,'erbsDriesse','| _, some e => .ok (erbsDriesseExtra ghi zenith e','| _, some e => .ok (erbsDriesseExtra ghi zenith 1366.1','dni_extra argument ignored','C24'),
('m083',T,'goldPass','f2 i < f1 i','f1 i < f2 i','searches the minimum','C32'),
('m084',T,'goldPass','s.VL i + phi i','s.VL i + phi i + phi i','probe outside bracket','C32'),
('m085',T,'goldenSect','upper i - lower i < 0','upper i - lower i ≤ 0','equal bounds rejected','C32'),
('m086',T,'degreesToReal','inputmin + 1 / scale / 2','inputmin','centre offset dropped','C33'),
('m087',T,'indexOfReal','if -index ≤ 0.500001 then .ok 0','if -index ≤ 0.500001 then .ok 1','lower edge index','C33'),
('m088',T,'kwargsStep','| some v => kwargs.set key v','| some v => (key, v) :: kwargs','order/dup of dict','C34'),
('m089',T,'buildArgs','.ok (v :: vs)','.ok (vs ++ [v])','order reversed','C34'),
('m090',T,'datetimeToDjd','| .naive w => w','| .naive w => w + 3600000000','naive treated as other zone','C35'),
('m091',T,'djdStart','(693594 * 24 + 12)','(693594 * 24)','noon dropped','C35: 1899-12-31T12:00 is zero'),
('m092',L,'setTz','fmtPlusD (-n))','fmtPlusD n)','POSIX sign not inverted','C39'),
('m093',L,'lookupAltitude','if alt.val = 255 then .ok 0','if alt.val = 254 then .ok 0','nodata value','C33/C40'),
('m094',L,'lookupAltitude','alt - 450','alt + 450','offset sign','C40'),
('m095',P,'huldPower','k.k5 * tprime * logGprime ^ 2','k.k5 * tprime * logGprime','square dropped','C37'),
('m096',P,'logWhere','if 0 < g then Fl.log g else fill','Fl.log g','zero guard dropped','C37: zero irradiance gives zero'),
('m097',P,'batzelis','let vmp := maximum vmp 0','let vmp := vmp','clip dropped','C38'),
('m098',P,'batzelis','let lnG := npwhere (isfinite g) lnG nan','let lnG := lnG','NaN restoration','C38'),
('m099',P,'pvefficiencyAdr','- k_rsh * v ^ 2','+ k_rsh * v ^ 2','sign','C37'),
('m100',P,'dvoracekFormula','npwhere (solar_elevation < 0) 0 solar_elevation','solar_elevation','night clamp dropped','C38'),
('m101',P,'inlandWaterDvoracek','| none, some c, some w => .ok','| _, some c, some w => .ok','conflicting arguments accepted','C38'),
('m102',W,'wavelet','else csiMean n vals (M - 1) (n + j)','else csiMean n vals 0 (n + j)','last row finest instead of coarsest','C36: reconstruction'),
('m103',W,'computeVr','2 * Fl.sum rho + n_dist','2 * Fl.sum rho','self terms dropped','C36'),
('m104',W,'waveletSmooth','if i < M - 1 then wavelet n M vals i j / Fl.sqrt (vr i)','if i < M - 1 then wavelet n M vals i j / (vr i)','sqrt dropped','C36'),
('m105',W,'shiftLast','if j = N - 1 then x ((N - 2 + 1) % N)','if j = N - 1 then x 0','wraps around','C36'),
('m106',W,'padSymmetric','vals (n - 1 - (j - 2 * n))','vals (j - 2 * n)','tail not mirrored','C36'),
]
