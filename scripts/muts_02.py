A='Model/Atmosphere.lean'; T='Model/Temperature.lean'; I='Model/Iam.lean'; S='Model/SingleDiode.lean'; C='Model/Spectrum.lean'; F='Model/PvFunctions.lean'
MUTS=[
('m201',A,'relativeAirmass','npwhere (90 < zenith) nan zenith','npwhere (90 ≤ zenith) nan zenith','NaN already at the horizon','C48: at zenith 90 the airmass is a number'),
('m202',A,'relativeAirmass','(pyLower model)','model','lower() dropped','C48: model names are case-insensitive'),
('m203',A,'apparentZenithModels','"gueymard1993", ','','gueymard1993 dropped from the apparent zenith models','C49: Location.get_airmass accepts it with the apparent zenith'),
('m204',A,'alt2pres','(44331.514 - altitude)','(44331.514 + altitude)','sign of altitude','C50: pressure falls with altitude'),
('m205',A,'gueymard94Pw','maximum pw 0.1','maximum pw 0','floor 0.1 cm lost','C50: at least 0.1 cm'),
('m206',A,'rhFromTdew','100 * (e / es)','100 * (es / e)','ratio inverted','C45: inverse of tdew_from_rh'),
('m207',A,'tdewFromRh','c2 * ln_term / (c1 - ln_term)','c2 * ln_term / (c1 + ln_term)','sign in the denominator','C45: inverse of rh_from_tdew'),
('m208',A,'windspeedPowerlaw','rpow (height_desired / height_reference) e','rpow (height_reference / height_desired) e','heights swapped','C46: higher is windier'),
('m209',A,'windspeedPowerlaw','npwhere (wind_speed < 0) nan wind_speed','wind_speed','negative speeds not replaced by NaN','C46: never negative'),
('m210',A,'angstromAod','(-alpha)','alpha','sign of the exponent','C47: inverse of angstrom_alpha'),
('m211',A,'kasten96Lt','(9.4 + 0.9 * airmass_absolute)','(9.4 - 0.9 * airmass_absolute)','sign of airmass','C50: Linke turbidity grows with water/aerosol'),
('m212',A,'absoluteAirmass','airmass_relative * pressure / 101325','airmass_relative * pressure / 100000','wrong reference pressure','C49: absolute = relative at the standard pressure'),
('m213',T,'sapmCellFromModule','(poa_global / irrad_ref) * deltaT','(poa_global / 1000) * deltaT','irrad_ref ignored','C51: deltaT is the difference at irrad_ref'),
('m214',T,'pvsystCell','(1 - module_efficiency)','(1 + module_efficiency)','sign of efficiency','C51: heat balance of pvsyst'),
('m215',T,'faimanRad','(temp_air - abs_zero) ^ 4','(temp_air) ^ 4','celsius used in T^4','C52: radiative loss uses kelvin'),
('m216',T,'ross','(noct - 20) / 80 * poa_global * 0.1','(noct - 20) / 80 * poa_global','unit conversion dropped','C52: at 800 W/m2 and 20 C the cell is at NOCT'),
('m217',T,'ross','| some _, some _ => .error .valueError','| some _, some k => .ok (temp_air + k * poa_global)','both parameters accepted','C52: exactly one of noct, k'),
('m218',T,'adjStandoff','2.5 ≤ x ∧ x ≤ 3.5','2.5 < x ∧ x ≤ 3.5','boundary 2.5 falls between pieces','C53: standoff table'),
('m219',T,'noctSam','eqv array_height 2 then .ok (body (0.61 * wind_speed))','eqv array_height 2 then .ok (body (0.51 * wind_speed))','two-storey wind factor','C53: wind factor 0.61 at height 2'),
('m220',T,'noctSam','module_efficiency / tau_alpha','module_efficiency * tau_alpha','division -> product','C53: heat balance'),
('m221',T,'sampleIntervals','% 86400','% 172800','seconds within two days','C55: daily data raises ZeroDivisionError'),
('m222',T,'prillimanSubset','r + i < samples','r + i ≤ samples','first sample masked','C55: window is the preceding 20 minutes'),
('m223',T,'prilliman','if i = 0 then temp_cell 0','if i = 0 then nan','first value not restored','C55: first value unchanged'),
('m224',T,'prilliman','if 20 ≤ sample_interval then','if 21 ≤ sample_interval then','threshold','C55: data at >= 20 min is returned unchanged'),
('m225',T,'useFaiman','u1 * net_absorptance','u1','factor dropped','C54: equals the faiman model after use_faiman'),
('m226',T,'usePvsyst','alpha_absorption.getD s.alpha','s.alpha','argument ignored','C54: equals pvsyst with the given absorption'),
('m227',T,'toSapm','-(Fl.log u_low + b * wind_fit_low)','-(Fl.log u_low - b * wind_fit_low)','sign','C54: to_sapm inverts use_sapm'),
('m228',T,'useNoctSam','800 * alpha / (noct - 20)','800 * s.alpha / (noct - 20)','old alpha used','C54: equals noct_sam with the given absorptance'),
('m229',T,'fuentesInner','if -10 < eigen then Fl.exp eigen else 0','Fl.exp (-eigen)','wrong sign of the exponent','C56: iterates bracketed'),
('m230',T,'fuentesTmod','(fuentesTmod s tamb sun windmod dtime i) (sun i)','(fuentesTmod s tamb sun windmod dtime i) (sun (i + 1))','previous sun not kept','C56: step uses previous absorbed irradiance'),
('m231',T,'fuentes','if i = 0 then fin (hours 1 - hours 0)','if i = 0 then fin 0','first time step 0','C56: first step as the second'),
('m232',I,'ashrae','90 ≤ Fl.abs aoi','90 ≤ aoi','abs dropped','C58: even function of aoi'),
('m233',I,'ashrae','maximum 0 iam','iam','lower clip dropped','C58: non-negative'),
('m234',I,'physical','maximum 0 (cosd aoi)','(cosd aoi)','clip of cos dropped','C59: zero behind the plane'),
('m235',I,'physical','-K * L / costheta','-K * L * costheta','path length','C59: absorption follows the path length'),
('m236',I,'physicalN2','if isclose a 1 then n else a','a','n_ar = 1 not treated as uncoated','C59: n_ar=1 equals no coating'),
('m237',I,'coating','n2 / n3 * sintheta','n3 / n2 * sintheta','Snell inverted','C59: Snell at the second interface'),
('m238',I,'martinRuiz','if a_r ≤ 0 then','if a_r < 0 then','a_r = 0 accepted','C58: a_r must be positive'),
('m239',I,'martinRuizDiffuse','(fin π - beta - sin_beta) / (1 + Fl.cos beta)','(fin π - beta + sin_beta) / (1 + Fl.cos beta)','sign','C60: horizontal sky term'),
('m240',I,'martinRuizDiffuse','fin 0.5 * a_r - fin 0.154','fin 0.5 * a_r','default c2','C60: default c2'),
('m241',I,'interp','iam / f 0','iam','normalisation dropped','C61: one at normal incidence'),
('m242',I,'minRefVals','"cubic" then 4','"cubic" then 3','one point too few','C61: cubic needs four points'),
('m243',I,'sapm','npwhere (aoi < 0) 0 iam','iam','negative aoi not zeroed','C58: zero for negative aoi'),
('m244',I,'schlick','^ 5','^ 4','exponent','C58/C63: Schlick'),
('m245',I,'schlickDiffuse','fin (30 / 7)','fin (31 / 7)','constant','C63: hemisphere average'),
('m246',I,'schlickDiffuse','npwhere (tilt < fin 1e-6) 0 cug','cug','horizontal ground factor','C63: ground factor 0 at tilt 0'),
('m247',I,'regionMask','phi ≥ π / 2','phi > π / 2','horizon band lost from ground','C62: cells of the ground region'),
('m248',I,'marionCell','(aoi < fin (π / 2))','(aoi < fin π)','cells behind the plane counted','C62: weights positive'),
('m249',I,'marionFd','(numerator / denominator)','(denominator / numerator)','inverted','C62: weighted average'),
('m250',I,'defaultNum','.ok 1800','.ok 180','horizon increments','C62: default number of increments'),
('m251',I,'processReturn','if n < L then','if L < n then','swap test inverted','C64: n is the larger one'),
('m252',I,'fitSetup','(1, 2)','(0, 2)','lower bound of n','C64: fitted n within [1,2]'),
('m253',I,'convert','if target ∉ fitModels then .error .notImplementedError','if target ∉ fitModels then .error .valueError','exception type','C64: NotImplementedError'),
('m254',I,'residual','npwhere (0 ≤ s.1 ∧ s.1 ≤ 90) 1 0','1','mask dropped','C64: angles outside [0,90] do not count'),
('m255',S,'estimateVoc','photocurrent / saturation_current + 1','photocurrent / saturation_current','+1 dropped','C67: bracket contains the solution / voc >= 0'),
('m256',S,'iRecomb','p.photocurrent * p.d2mutau / vRecomb vd p','p.d2mutau / vRecomb vd p','photocurrent dropped','C65: recombination current'),
('m257',S,'bishop88','vd - i * p.resistance_series','vd + i * p.resistance_series','sign of the series drop','C65: diode equation'),
('m258',S,'gradI','-g_diode - gSh p - grad_i_recomb - grad_i_brk','-g_diode - gSh p + grad_i_recomb - grad_i_brk','sign','C66: derivative'),
('m259',S,'bishop88Grads','grad_i * grad2v / grad_v ^ 2','grad_i * grad2v / grad_v','square dropped','C66: second derivative of power'),
('m260',S,'startPoint','(fin 0.9999 * p.NsVbi)','p.NsVbi','start at the singularity','C67: bracket stays below NsVbi'),
('m261',S,'bishop88IFromV','(bishop88 vd p).i','(bishop88 vd p).v','returns the voltage','C67: returns the current'),
('m262',S,'bishop88VFromI','(bishop88 x p).i - current','(bishop88 x p).i + current','residual sign','C67: solution at the requested current'),
('m263',S,'bishop88Mpp','(fun x => (bishop88Grads x p).grad_p)','(fun x => (bishop88Grads x p).grad)','wrong residual','C68: stationary power'),
('m264',S,'lambertwVFromI','- I * Rs - a * lambertwterm','- a * lambertwterm','series drop left out','C69: solves the diode equation'),
('m265',S,'lambertwVFromI','a * log1p ((IL - I) / I0) - I * Rs','a * Fl.log ((IL - I) / I0) - I * Rs','log1p -> log','C69: ideal case solves the diode equation'),
('m266',S,'lambertwIFromV','IL - I0 * expm1 (V / a) - Gsh * V','IL - I0 * expm1 (V / a)','shunt left out for Rs = 0','C69: solves the diode equation'),
('m267',S,'halleyStep','fin 0.5 * (g + 2)','fin 0.5 * (g + 1)','Halley coefficient','C70: accuracy'),
('m268',S,'lambertw','(fin 0.5 * (v_oc + v_mp))','(fin 0.5 * v_oc)','i_xx at the wrong voltage','C71: i_xx at the midpoint of v_oc and v_mp'),
('m269',S,'lambertw','if v_oc < 0 ∧ fin (-1e-12) < v_oc then 0 else v_oc','v_oc','tiny negative v_oc kept','C71: v_oc rounded to 0'),
('m270',S,'lambertw','| some 0 => none','| some 0 => some []','zero points','C71: 0 points behaves as None'),
('m271',S,'batzelis','npwhere (0 < Iph) voc 0','voc','voc at night','C72: zeros at night'),
('m272',S,'batzelis','Iph / (Rs / Rsh + 1)','Iph / (Rsh / Rs + 1)','ratio inverted','C72: isc'),
('m273',C,'interp0','if x < x0 then 0','if x < x0 then y0','extrapolates to the left','C73: zero outside the response'),
('m274',C,'mismatchField','uf_sun / uf_ref','uf_ref / uf_sun','ratio inverted','C73'),
('m275',C,'firstsolar','if max_pw < pw then nan else pw','pw','upper limit on water dropped','C74: NaN above max_pw'),
('m276',C,'firstsolar','maximum (minimum airmass_absolute max_am) min_am','minimum airmass_absolute max_am','lower airmass clip dropped','C74: airmass clipped'),
('m277',C,'sapmFactor','maximum 0 spectral_loss','spectral_loss','lower clip','C74: non-negative'),
('m278',C,'chooseCoeffCS','tbl.lookup m','tbl.lookup (pyLower m)','lower-cased','C74: caballero names are case-sensitive'),
('m279',C,'caballero','(precipitable_water - fin 1.4164)','(precipitable_water - fin 1.4)','reference water','C74: unity terms at reference conditions'),
('m280',C,'polo','(minimum aoi 90)','aoi','clip of aoi dropped','C74: finite behind the plane'),
('m281',C,'polo','albedo / fin 0.2) ^ 2','albedo / fin 0.2) ^ 3','exponent','C74: polo polynomial'),
('m282',C,'srToQe','p.2 / fin p.1 * fin hcq','p.2 * fin p.1 / fin hcq','inverse conversion','C75: QE = SR * hc / (q lambda)'),
('m283',C,'averagePhotonEnergy','p.2 < 0','p.2 ≤ 0','zero irradiance refused','C75: only negative values raise'),
('m284',F,'calcparamsDesoto','(I_L_ref + alpha_sc * (Tcell_K - Tref_K))','(I_L_ref - alpha_sc * (Tcell_K - Tref_K))','sign of alpha','C76'),
('m285',F,'calcparamsDesoto','(irrad_ref / effective_irradiance)','(effective_irradiance / irrad_ref)','ratio inverted','C76: Rsh grows at low light'),
('m286',F,'calcparamsCec','(1 - Adjust / 100)','(1 + Adjust / 100)','sign of Adjust','C76'),
('m287',F,'pvsystRsh','maximum 0 Rsh_tmp','Rsh_tmp','clip dropped','C77: Rsh never negative'),
('m288',F,'pvsystGamma','(temp_cell - temp_ref)','(temp_cell - 25)','temp_ref ignored','C77: gamma_ref at temp_ref'),
('m289',F,'sapm','(1 + m.Aimp * (temp_cell - temperature_ref))','(1 + m.Aisc * (temp_cell - temperature_ref))','wrong temperature coefficient','C79: i_mp'),
('m290',F,'sapm','maximum 0 (m.Voco','minimum 0 (m.Voco','max -> min','C79: v_oc non-negative'),
('m291',F,'logEe','if eqv Ee 0 then ninf else l','l','zero irradiance NaN','C79: dark module has zero v_oc'),
('m292',F,'singlediode','(v_oc / 2)','(v_oc)','i_x at v_oc','C78: methods agree'),
('m293',F,'scaleVoltageCurrentPower','x * voltage * current','x * voltage','power not scaled by current','C80'),
('m294',F,'pvwattsDc','effective_irradiance ≤ 200','effective_irradiance < 100','threshold','C81: continuity of the low light correction'),
('m295',F,'pvwattsDc','npwhere (pdc < 0) 0 pdc','pdc','clip dropped','C81: non-negative with k'),
('m296',F,'pvwattsLosses','perf * (1 - p / 100)','perf - p / 100','losses added','C81: losses combine multiplicatively'),
('m297',F,'dcOhmsFromPercent','(vmp / imp)','(imp / vmp)','inverted','C81: loss at reference is the given percent'),
('m298',F,'reindexAt','(p.1 ≤ t)','(p.1 < t)','ffill excludes the label itself','C82: value at its own time'),
('m299',F,'combineLossFactors','1 - losses.foldl','losses.foldl','complement dropped','C82'),
('m300',F,'retrieveSam','| some _, some _ => .error .valueError','| some _, some p => .ok (.file p)','both accepted','C83'),
('m301',F,'badChars',"'+', '/', ","'/', ",'plus not replaced','C83: no bad characters'),
('m302',F,'internalDbs','("cecinverter", "sam-library-cec-inverters-2019-03-05.csv")','("cecinverter", "adr-library-cec-inverters-2019-03-05.csv")','wrong file','C83'),
('m303',F,'vFromI','else bishop88VFromI n.s current (params f) (pyLower method)','else bishop88IFromV n.s current (params f) (pyLower method)','inverse function','C78'),
('m304',F,'maxPowerPoint','d2mutau := d2mutau, ','','d2mutau not passed on','C78: max_power_point with recombination'),
]
