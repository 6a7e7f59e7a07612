K='Model/Clearsky.lean'; S='Model/SolarPosition.lean'; N='Model/Spa.lean'; D='Model/SolarDispatch.lean'; B='Model/Bifacial.lean'; Y='Model/PvSystem.lean'; M='Model/ModelChain.lean'
MUTS=[
('m305',K,'ineichen','let cos_zenith := maximum (cosd apparent_zenith) 0','let cos_zenith := cosd apparent_zenith','clip at zero dropped','no negative GHI at night'),
('m306',K,'ineichen','fmax ghi 0','ghi','fmax dropped from ghi','NaN airmass at night gives zero'),
('m307',K,'ineichen','let dni := minimum bnci bnci_2','let dni := bnci','cap on DNI dropped','DNI limited by bnci_2'),
('m308',K,'ineichen','let dhi := ghi - dni * cos_zenith','let dhi := ghi - dni','closure without cosine','ghi = dhi + dni cos z'),
('m309',K,'monthDays','if leap then 29 else 28','28','leap day ignored','month middles of leap years'),
('m310',K,'interpolateTurbidity','[lts.getLastD 0] ++ lts ++ [lts.headD 0]','[lts.headD 0] ++ lts ++ [lts.getLastD 0]','wrap-around values swapped','interpolation across the new year'),
('m311',K,'lookupLinke','(lt / 20)','lt','scaling dropped','turbidity = byte/20'),
('m312',K,'lookupLinke','lts.getD (t.month - 1) 0','lts.getD t.month 0','month off by one','monthly value'),
('m313',K,'haurwitz','if 0 < cos_zenith','if 0 ≤ cos_zenith','boundary at the horizon','zero at the horizon'),
('m314',K,'simplifiedSolis','maximum precipitable_water (fin 0.2)','precipitable_water','floor of water dropped','dry atmosphere'),
('m315',K,'simplifiedSolis','maximum (fin 1e-30) (Fl.sin (radians apparent_elevation))','Fl.sin (radians apparent_elevation)','floor of sine dropped','zero below the horizon'),
('m316',K,'bird','npwhere (zenith < 90) (Fl.cos ze_rad) 0','Fl.cos ze_rad','night not clipped','zero horizontal beam at night'),
('m317',K,'bird','let diffuse_horiz := gh - id_nh','let diffuse_horiz := gh - id_','normal instead of horizontal','ghi = dhi + direct horizontal'),
('m318',K,'getThreshold','30 < sample_interval','30 ≤ sample_interval','boundary','30 min samples accepted'),
('m319',K,'centered','if i < s / 2 then nan','if i < s then nan','shift lost','windows are centred'),
('m320',K,'flags','c4 i := slopeNstd n s dt meas i < fin L.var_diff','c4 i := slopeNstd n s dt clear i < fin L.var_diff','clear instead of measured','criterion 4'),
('m321',K,'flags','c1 i := Fl.abs (meanSeries n s meas i - alpha * meanSeries n s clear i) < fin L.mean_diff','c1 i := meanSeries n s meas i - alpha * meanSeries n s clear i < fin L.mean_diff','abs dropped','criterion 1'),
('m322',K,'clearSamples','j < w + s','j ≤ w + s','window one too long','samples of clear windows'),
('m323',K,'newAlpha','sumOver n sel (fun j => meas j * clear j) / C','C / sumOver n sel (fun j => meas j * clear j)','ratio inverted','least squares scale'),
('m324',K,'detectLoop','if k = 0 then .ok ⟨sel, f, a, true⟩','if k = 0 then .ok ⟨sel, f, a, false⟩','no warning','warning when not converged'),
('m325',K,'detectClearsky','if p.2.2 < 3','if p.2.2 < 2','boundary','windows of two samples rejected'),
('m326',K,'detectClearsky','else if n < p.2.2 then .error .valueError','else if n < 0 then .error .valueError','short data accepted','data shorter than a window'),
('m330',S,'solarAzimuthAnalytical','sign_ha * Fl.arccos cos_azi + fin π','sign_ha * Fl.arccos cos_azi','south offset dropped','azimuth from north'),
('m331',S,'solarAzimuthAnalytical','npwhere (isclose8 denom 0) 1 cos_azi','cos_azi','pole / zenith guard dropped','azimuth 180 at the pole'),
('m332',S,'solarZenithAnalytical','Fl.sin declination * Fl.sin latitude','Fl.sin declination * Fl.cos latitude','sin/cos','dot product'),
('m333',S,'dayStart','86400 * ⌊w / 86400⌋','86400 * ⌈w / 86400⌉','next midnight','hours after local midnight'),
('m334',S,'localizeShift','sInf {u | w ≤ wall z u}','w','not shifted','midnight inside a DST gap'),
('m335',S,'hourAngle','fin hrs - fin (z p.1 / 3600)','fin hrs + fin (z p.1 / 3600)','sign of offset','hour angle'),
('m336',S,'hourAngle','longitude + p.2 / 4','longitude - p.2 / 4','sign of equation of time','hour angle'),
('m337',S,'hourAngleToHours','/ 15 + 12 +','/ 15 +','noon offset dropped','inverse of hour angle'),
('m338',S,'sunsetAngle','Fl.arccos (-(Fl.tan declination) * Fl.tan latitude_rad)','Fl.arccos (Fl.tan declination * Fl.tan latitude_rad)','sign','sun at the horizon at sunset'),
('m339',S,'sunRiseSetTransitGeometric1','.ok (sunrise, sunset, transit)','.ok (sunset, sunrise, transit)','swapped','sunrise before sunset'),
('m340',S,'keplerStep','MeanAnom + Fl.degrees Eccen','MeanAnom - Fl.degrees Eccen','sign','Kepler equation'),
('m341',S,'wrapHrAngle','180 < Fl.abs HrAngle','360 < Fl.abs HrAngle','threshold','solar time in [0,24)'),
('m342',S,'ephemAzimuth','if SunAz < 0 then SunAz + 360 else SunAz','SunAz','no wrap','azimuth in [0,360)'),
('m343',S,'ephemAzimuth','(-(Fl.sin HrAngleR))','(Fl.sin HrAngleR)','east-west','azimuth matches direction'),
('m344',S,'ephemElevation','Fl.cos LatR * Fl.cos DecR * Fl.cos HrAngleR','Fl.cos LatR * Fl.sin DecR * Fl.cos HrAngleR','sin/cos','elevation'),
('m345',S,'ephemRefraction','if 5 < Elevation ∧ Elevation ≤ 85','if 5 < Elevation','high branch unbounded','no refraction above 85'),
('m346',S,'ephemRefraction','if -0.575 < Elevation ∧ Elevation ≤ 5','if -0.575 < Elevation ∧ Elevation < 5','gap at 5 degrees','refraction positive between -1 and 85'),
('m347',S,'ephemeris','if times = [] then .error .valueError','if times = [] then .ok (some [])','empty accepted','empty raises ValueError'),
('m348',S,'eclipticLongitude','- 20 / 3600','+ 20 / 3600','sign of aberration','aberration'),
('m349',S,'equationOfTimePvcdrom','7.53 * Fl.cos bday','7.53 * Fl.sin bday','sin/cos','equation of time'),
('m350',S,'declinationCooper69','* 285.0','* 284.0','day shift','solstice value'),
('m351',S,'ephemFinish','zenith := 90 - SunEl','zenith := 90 - ApparentSunEl','apparent','zenith + elevation = 90'),
('m352',S,'mapErr','.ok (b :: bs)','.ok bs','drops elements','one output per time'),
('m355',N,'julianDayDt','if month ≤ 2 then year - 1 else year','if month < 2 then year - 1 else year','February','julian day agrees with unix time'),
('m356',N,'julianDayDt','2 - a + pyInt ((a : ℝ) * 0.25)','2 - a','Gregorian correction','julian day agrees with unix time'),
('m357',N,'julianDay','2440587.5','2440587','noon','julian day of the epoch'),
('m358',N,'geocentricLongitude','(L + 180.0)','L','opposite direction','geocentric = heliocentric + 180'),
('m359',N,'geocentricSunRightAscension','- Fl.tan (Fl.radians beta) * Fl.sin e','+ Fl.tan (Fl.radians beta) * Fl.sin e','sign','rotation by the obliquity'),
('m360',N,'geocentricSunDeclination','Fl.sin b * Fl.cos e +','Fl.sin b * Fl.sin e +','sin/cos','rotation by the obliquity'),
('m361',N,'localHourAngle','(v + lon - alpha)','(v - lon - alpha)','sign of longitude','east positive'),
('m362',N,'parallaxSunRightAscension','let num := -x * Fl.sin xr','let num := x * Fl.sin xr','sign','observer displacement'),
('m363',N,'topocentricSunDeclination','(Fl.sin dr - y * Fl.sin xr)','(Fl.sin dr + y * Fl.sin xr)','sign','observer displacement'),
('m364',N,'topocentricElevation0','Fl.cos lr * Fl.cos dr * Fl.cos (Fl.radians hp)','Fl.cos lr * Fl.sin dr * Fl.cos (Fl.radians hp)','sin/cos','elevation'),
('m365',N,'refractionCorrection','-1.0 * (0.26667 + atmos_refract) ≤ e0','0.26667 + atmos_refract ≤ e0','sign of the switch','refraction only above the horizon'),
('m366',N,'astronomersAzimuth','- Fl.tan (Fl.radians dp) * Fl.cos lr','+ Fl.tan (Fl.radians dp) * Fl.cos lr','sign','azimuth direction'),
('m367',N,'topocentricAzimuth','(gamma + 180)','gamma','south','azimuth from north'),
('m368',N,'equationOfTime','boolFl greater * (E - 1440)','boolFl greater * E','wrap dropped','equation of time at most 20 min'),
('m369',N,'cells','[o.apparent_zenith, o.zenith,','[o.zenith, o.apparent_zenith,','rows swapped','numba equals numpy'),
('m370',N,'chunkSizes','if i < n % k then 1 else 0','0','remainder lost','every time computed'),
('m371',N,'cutAt','cutAt (off + s) ss (l.drop s)','cutAt off ss (l.drop s)','offset not advanced','threads write their own columns'),
('m372',N,'threads','(chunkSizes n k.toNat)','(chunkSizes n (k.toNat - 1))','one thread fewer for division','numba equals numpy (survivor expected: still correct)'),
('m373',N,'loopWrites','loopWrites mode loc (off + 1) rest','loopWrites mode loc off rest','column not advanced','numba equals numpy'),
('m374',N,'unwrap1','if 2 < Fl.abs a then','if 1 < Fl.abs a then','threshold','interpolation'),
('m375',N,'cosArg','if 1 < Fl.abs c then nan else c','c','no mask','NaN on days without sunrise'),
('m376',N,'transitSunriseSunset1','let S := if add_a_day then S + 86400 else S','let S := S','day not added','sunset after transit'),
('m377',N,'transitSunriseSunset1','let R := if sub_a_day then R - 86400 else R','let R := R','day not subtracted','sunrise before transit'),
('m378',N,'transitSunriseSunset','Fl.mod d.1 86400 ≠ 0','Fl.mod d.1 86400 = 1','check lost','dates not at midnight raise'),
('m379',N,'riseCorrection','(f.2.2 + 0.8333)','(f.2.2 - 0.8333)','sign','sun at -0.8333 at sunrise'),
('m380',N,'calculateDeltat','(1986 ≤ year ∧ year < 2005)','(1986 ≤ year ∧ year ≤ 2005)','boundary (overwritten by the next branch: equivalent)','delta T'),
('m381',N,'calculateDeltat','(month - 0.5) / 12','month / 12','mid-month','decimal year'),
('m382',N,'calculateDeltat','(2005 ≤ year ∧ year < 2050)','(2005 < year ∧ year < 2050)','boundary','delta T in 2005'),
('m383',N,'deltatWarns','3000 < year ∨','','upper bound dropped','warning after 3000'),
('m384',N,'nutationStep','(a + b * jce) * Fl.sin arg','(a + b * jce) * Fl.cos arg','sin/cos','nutation bound'),
('m385',N,'aberrationCorrection','-20.4898 / (3600 * R)','20.4898 / (3600 * R)','sign','aberration'),
('m386',N,'xterm','elev / 6378140 * Fl.cos (Fl.radians lat)','elev / 6378140 * Fl.sin (Fl.radians lat)','sin/cos','observer position'),
('m390',D,'loadSpa','| .missing => (.ok (), { s with useNumba := false })','| .missing => (.ok (), { s with useNumba := true })','numba assumed','without numba numpy is used'),
('m391',D,'reloadWith','{ s with env := none }','s','environment not restored','environment variable removed'),
('m392',D,'spaPythonImport','how = "numpy" ∧ s.useNumba = true','how = "numpy" ∧ s.useNumba = false','condition','how=numpy uses numpy'),
('m393',D,'spaPythonImport','else if how ≠ "numba" ∧ how ≠ "numpy" then (.error .valueError, s)','else if how ≠ "numba" ∧ how ≠ "numpy" then (.ok (), s)','unknown accepted','unknown how raises'),
('m394',D,'refractDefault','| none => 0.5667','| none => 0.25','default','atmos_refract'),
('m395',D,'spaLoc','w.pressure / 100','w.pressure','unit','mbar'),
('m396',D,'altPres','| none, some p => (pres2alt p, p)','| none, some p => (0, p)','altitude default','altitude from pressure'),
('m397',D,'getSolarposition','else if m = "nrel_numba" then spaPython numba cal "numba" t w kw s','else if m = "nrel_numba" then spaPython numba cal "numpy" t w kw s','numba ignored','same values (state differs)'),
('m398',D,'getSolarposition','let m := pyLower method','let m := method','lower dropped','case-insensitive'),
('m399',D,'sunRiseSetTransitSpa','(o.2.1, o.2.2, o.1)','(o.1, o.2.1, o.2.2)','order','sunrise, sunset, transit'),
('m400',D,'sunRiseSetTransitSpa','| none => (.error .valueError, s)','| none => (.ok [], s)','naive accepted','naive raises'),
('m401',D,'pyRound','if ⌊x⌋ % 2 = 0 then ⌊x⌋ else ⌊x⌋ + 1','⌊x⌋','half down','nearest microsecond (still nearest)'),
('m402',D,'ephemConvert','- 2209032000','- 2208988800','epoch midnight','PyEphem epoch at noon'),
('m403',D,'sunRiseSetTransitEphem','ephemToTimezone (ev.previousSetting u)','ephemToTimezone (ev.nextSetting u)','next for previous','previous setting'),
('m404',D,'localDate','dayStart (wall z u)','dayStart u','UTC date','local date'),
('m405',D,'rowOfColumn','zenith := c.getD 1 nan','zenith := c.getD 0 nan','column','zenith = 90 - elevation'),
('m406',D,'pyephem','elevation := Fl.degrees v.1','elevation := Fl.degrees a.1','apparent','zenith + elevation'),
('m410',B,'shadowPart','npwhere (dp\' < a ∧ cp\' < a) 0 fs','npwhere (dp\' < a ∧ cp\' < a) 1 fs','shadow left of the segment','exact overlap'),
('m411',B,'shadowPart','npwhere (cp < dp) dp cp','cp','not ordered','exact overlap'),
('m412',B,'unshadedGround','(arange (-max_rows) (max_rows + 2))','(arange (-max_rows) (max_rows))','two rows fewer','number of rows'),
('m413',B,'unshadedGround','1 - clip (Fl.sum fs) 0 1','1 - Fl.sum fs','no clip','between 0 and 1'),
('m414',B,'unshadedGround','npwhere (max_zenith < Fl.abs phi) 0 f_gnd_beam','f_gnd_beam','no cut-off','zero beyond max_zenith'),
('m415',B,'unshadedGroundFraction','if g0 = 0 ∧ g1 = 1 then unshadedGround tracker_rotation phi gcr 1 (1 / gcr)','if g0 = 0 ∧ g1 = 1 then unshadedGround tracker_rotation phi gcr 1 gcr','pitch','whole ground'),
('m416',B,'vfGroundSky2d','greater (k + 1)','greater k','same row','gap between neighbours'),
('m417',B,'vfGroundSky2d','/ 2\n\n/-- `_dist`','\n\n/-- `_dist`','half','view factor at most one'),
('m418',B,'stringLength','(dist p ob_left + dist ob_left q) (dist p q)','(dist p q) (dist p q)','left obstruction ignored','obstructed string'),
('m419',B,'crossedStrings','(stringLength a c ob_left ob_right + stringLength b d ob_left ob_right)','(stringLength a d ob_left ob_right + stringLength b c ob_left ob_right)','not crossed','view factor'),
('m420',B,'vfRowSky2d','(1 - x)) / p','x) / p','position from the top','view of the sky'),
('m421',B,'vfRowSky2dInteg','npwhere (surface_tilt < 0) (1 - x1) x0','x0','mirror lost','negative rotation'),
('m422',B,'vfRowGround2d','1 - (1 / gcr','1 + (1 / gcr','sign','view of the ground'),
('m423',B,'vfRowGround2dInteg','(arange (-max_rows) max_rows)','(arange 0 max_rows)','half of the ground','total view of the ground'),
('m424',B,'shedsShadedFraction','npwhere (ao < 90) f_x 1','f_x','behind not shaded','sun behind'),
('m425',B,'shedsShadedFraction','npwhere (1 < x) f_x 0','npwhere (0 < x) f_x 0','boundary','no shade'),
('m426',B,'moveCircumsolar','dhi - circumsolar (f 0 180)','dhi','not subtracted','conservation'),
('m427',B,'shedsSide','poa_beam * (1 - f_x) * iam','poa_beam * f_x * iam','shaded part','beam on the lit part'),
('m428',B,'shedsSide','dhi * vfRowSky2dInteg surface_tilt gcr 0 1','ghi * vfRowSky2dInteg surface_tilt gcr 0 1','ghi','sky diffuse from dhi'),
('m429',B,'poaGroundShadows','(ghi - dhi)','ghi','not beam','beam on the ground'),
('m430',B,'backside','(180 + surface_azimuth)','surface_azimuth','same azimuth','back normal opposite'),
('m431',B,'shedsGetIrradiance','back.poa_global * bifaciality * effects','back.poa_global * bifaciality','effects dropped','shade and transmission'),
('m432',B,'antsShadedFraction','npwhere (tracker_rotation < 0) (1 - x1) x0','x0','mirror','negative rotation'),
('m433',B,'groundLight','(1 - shaded) * (ghi - dhi)','shaded * (ghi - dhi)','shaded','beam on ground'),
('m434',B,'antsSide','p.1.albedo * p.2','p.2','albedo','reflected light'),
('m435',B,'applySkyDiffuseModel','else if model ≠ "isotropic" then .error .valueError','else if model = "" then .error .valueError','unknown accepted','unknown model raises'),
('m436',B,'wrap180','Fl.mod (r + 180) 360 - 180','Fl.mod r 360','range','wrap'),
('m437',B,'applyGroundSlope','gcr * cosd cross_axis_slope','gcr / cosd cross_axis_slope','inverse','slope geometry'),
('m438',B,'antsGetIrradiance','(1 - x.2) (1 - x.1) n','x.1 x.2 n','back not mirrored','back segment'),
('m439',B,'antsGetIrradiance','axis_tilt axis_azimuth - cross_axis_slope','axis_tilt axis_azimuth','slope not subtracted','projected angle'),
('m440',B,'powerMismatchDeline','acc * rmad + c','acc * rmad','constant term','polynomial'),
('m441',B,'powerMismatchDeline','if f = 0 then coefficients else','','falsy zero','fill factor zero'),
('m442',B,'solarProjectionTangent','cosd (solar_azimuth - surface_azimuth)','sind (solar_azimuth - surface_azimuth)','sin/cos','projection'),
('m443',B,'groundSkySlat','let d := (c.1 - pitch, c.2)','let d := (c.1 + pitch, c.2)','wrong neighbour','gap between rows'),
('m444',B,'rowGroundSlat','npwhere (surface_tilt < 0) (-ob_left.1) ob_right.1','ob_right.1','mirror lost','negative rotation'),
('m450',Y,'inferTemperatureParams','fmtOpt racking_model ++ "_" ++ fmtOpt module_type','fmtOpt module_type ++ "_" ++ fmtOpt racking_model','order','inferred parameters'),
('m451',Y,'mkArray','.getD (fin 0.25))','.getD (fin 0.2))','default albedo','albedo 0.25'),
('m452',Y,'inferCellType','module_parameters.get? "Technology"','module_parameters.get? "technology"','key','cell type'),
('m453',Y,'PvArr.getIrradiance','dni_extra.getD (extra.getD 1367)','dni_extra.getD 1367','extra ignored','extra radiation by day'),
('m454',Y,'PvArr.getIam','(kwOr kw "K" 4) (kwOr kw "L" (fin 0.002))','(kwOr kw "L" (fin 0.002)) (kwOr kw "K" 4)','K and L swapped','physical parameters'),
('m455',Y,'PvArr.getCellTemperature','(kwOr kt "u_c" 29) (kwOr kt "u_v" 0)','(kwOr kt "u_v" 0) (kwOr kt "u_c" 29)','swapped','pvsyst parameters'),
('m456',Y,'PvArr.dcOhms','else if hasKey d "Vmpo" && hasKey d "Impo" then finish "Vmpo" "Impo"','else if hasKey d "Vmpo" && hasKey d "Impo" then finish "Impo" "Vmpo"','swapped','dc ohms'),
('m457',Y,'validatePerArray','.tuple xs => if xs.length ≠ sys.arrays.length then .error .valueError else .ok xs','.tuple xs => .ok xs','length not checked','wrong length raises'),
('m458',Y,'unwrapValue','[b] => if unwrap then .single b else .tuple [b]','[b] => .tuple [b]','never unwrapped','single array gives single value'),
('m459',Y,'System.getAc','if multiple_arrays then Inverter.sandiaMulti v p q','if multiple_arrays then Inverter.sandiaMulti p v q','swapped','sandia multi'),
('m460',Y,'System.getAc','if multiple_arrays then .error .valueError\n    else (validatePerArray','if False then .error .valueError\n    else (validatePerArray','adr multi accepted','adr multi raises'),
('m461',Y,'mkSystem','if as.length = 0 then .error .valueError else done as','done as','empty accepted','no arrays raises'),
('m462',Y,'System.scale','p.1.modules_per_string p.1.strings','p.1.strings p.1.modules_per_string','swapped','scaling'),
('m463',Y,'sandiaParams','⟨Paco, Pdco, Vdco, Pso,','⟨Pdco, Paco, Vdco, Pso,','swapped','inverter parameters'),
('m464',Y,'pvwattsDcOf','(kw.get? "k")','none','k ignored','pvwatts k'),
('m465',Y,'firstSolarOf','Spectrum.firstsolar pw airmass_absolute none (some c)','Spectrum.firstsolar airmass_absolute pw none (some c)','swapped','first solar'),
('m466',Y,'collect','.error e :: _ => .error e','.error _ :: rest => collect rest','errors dropped','first exception'),
('m467',Y,'desotoOf','"EgRef" (fin 1.121)','"EgRef" (fin 1.12)','default','defaults'),
('m470',M,'inferDc','if params ["a_ref", "I_L_ref", "I_o_ref", "R_sh_ref", "R_s", "Adjust"] then .ok (.cec, "cec")','if params ["a_ref", "I_L_ref", "I_o_ref", "R_sh_ref", "R_s", "Adjust"] then .ok (.desoto, "desoto")','cec lost','inference'),
('m471',M,'chooseAc','if hasSub name "adr" then .ok .adr','if name = "adr" then .ok .adr','substring test replaced','documented quirk: substrings of adr accepted'),
('m472',M,'assignTemp','if m = m\' then ⟨some m, none⟩ else ⟨some m, some .valueError⟩','⟨some m, none⟩','check dropped','inconsistent temperature model raises'),
('m473',M,'pvwattsConfig','transposition_model := "perez"','transposition_model := "haydavies"','preset','with_pvwatts'),
('m474',M,'toTuple','| .list dfs => .tuple dfs','| .list dfs => .tuple (dfs.take 1)','list truncated','list = tuple'),
('m475',M,'checkMultipleInput','if !strict || sys.arrays.length = 1 then .ok () else .error .typeError','.ok ()','strict ignored','single frame for many arrays'),
('m476',M,'verifyDf','if dfs.all ok then','if dfs.any ok then','any','every frame needs the columns'),
('m477',M,'buildWeather','.default "temp_air" 20','.default "temp_air" 25','default','temp_air 20'),
('m478',M,'prepAlbedo','fun _ => a.albedo','fun _ => 0.25','constant','array albedo'),
('m479',M,'effIrrad','direct i * aoi_mod i + fd * diffuse i','direct i + aoi_mod i * fd * diffuse i','modifier on diffuse','effective irradiance'),
('m480',M,'irradForCelltemp','if df.has "poa_global" then tupleFromDfs (.one df) "poa_global" else need effective_irradiance','need effective_irradiance','poa_global ignored','temperature from poa_global'),
('m481',M,'givenCellTemperature','if c.temp = .sapm then','if True then','any model','module temperature only with sapm'),
('m482',M,'fillna0','if isnan x then 0 else x','x','no fill','NaN power becomes zero'),
('m483',M,'runOhmic','dc := some (wrapIf r.singleton (.one v.2))','dc := some (wrapIf r.singleton (.one d))','loss not subtracted','ohmic losses'),
('m484',M,'runLosses','(100 - l) / 100','l / 100','loss not remainder','pvwatts losses'),
('m485',M,'runAc','c.system.getAc "pvwatts" (PerArray.at p i)','c.system.getAc "sandia" (PerArray.at p i)','model','ac model'),
('m486',M,'runModelFromEff','(checkMultipleInput c.system d).bind fun _ => (verifyDf','(verifyDf','check dropped','one frame for many arrays raises'),
('m487',M,'completeOne','.ok (w.add "ghi" fun i => (o i).ghi)','.ok (w.add "ghi" fun i => (o i).dhi)','column','completed ghi'),
('m488',M,'prepareTemperature','(given.zip t).map fun p => p.1.getD p.2','(given.zip t).map fun p => p.2','given temperature ignored','given temperatures win'),
('m489',M,'runSinglediode','scaleCols p.2 p.1.modules_per_string p.1.strings','scaleCols p.2 p.1.strings p.1.modules_per_string','swapped','scaling'),
('m490',M,'scaleCols','pick ["v_mp", "v_oc"] (fun x => x * voltage)','pick ["v_mp"] (fun x => x * voltage)','v_oc','KeyError / scaling'),
('m491',M,'assignWeather','let single := decide (sys.arrays.length = 1) && PerArray.isTuple data','let single := decide (sys.arrays.length = 1)','always tuple','single results'),
('m492',M,'wrapIf','if singleton then .tuple [x] else .one x','.one x','never wrapped','singleton tuples'),
('m493',M,'withSapm','(kw.over sapmConfig)','(kw.over pvwattsConfig)','preset','with_sapm'),
('m494',M,'runTemp','if c.temp = .noct_sam then','if c.temp = .sapm then','effective irradiance','noct_sam'),
('m495',M,'chooseLosses','| none => .error .notImplementedError','| none => .ok .no_loss','None accepted','None raises'),
('m496',M,'DF.select','keys.filterMap fun k => (df.cols.get? k).map fun s => (k, s)','df.cols','all columns kept','only weather columns'),
('m497',M,'prepFixed','a.getAoi (sp.apparent_zenith i) (sp.azimuth i)','a.getAoi (sp.zenith i) (sp.azimuth i)','true zenith','apparent zenith'),
('m498',M,'runSpectral','firstSolarOf a (am.absolute i) (x i)','firstSolarOf a (am.relative i) (x i)','relative','absolute airmass'),
]
