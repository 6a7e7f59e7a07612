C='Model/ModelChain.lean'; F='Model/PvFunctions.lean'; K='Model/Clearsky.lean'; S='Model/SnowSoiling.lean'; D='Model/Decomposition.lean'
MUTS=[
('m819',C,'runTemp','(hoursOf times) poa ta ws','(hoursOf times) poa ws ta','air temperature and wind speed swapped','chain weather (C223)'),
('m820',C,'buildWeather','"wind_speed" 0).default "temp_air" 20','"wind_speed" 20).default "temp_air" 0','defaults swapped','chain defaults'),
('m821',C,'prepSolarPos','(d.cols.get? "temp_air")).bind','none).bind','air temperature not passed to the solar position','chain solar position (C223)'),
('m822',F,'calcparamsDesoto','1 + dEgdT * (Tcell_K - Tref_K)','1 - dEgdT * (Tcell_K - Tref_K)','sign of the band gap coefficient','hotter module (C224)'),
('m823',F,'calcparamsDesoto','(Tcell_K / Tref_K) ^ 3','(Tcell_K / Tref_K) ^ 2','square for cube','De Soto formulas'),
('m824',F,'calcparamsDesoto','Fl.exp (EgRef / (k * Tref_K) - E_g / (k * Tcell_K))','Fl.exp (E_g / (k * Tcell_K) - EgRef / (k * Tref_K))','exponent reversed','hotter module (C224)'),
('m825',F,'calcparamsCec','1 - Adjust / 100','1 + Adjust / 100','sign of Adjust','CEC formulas'),
('m826',F,'pvsystIo','(1 / Tref_K - 1 / Tcell_K)','(1 / Tcell_K - 1 / Tref_K)','exponent reversed','hotter module (C224)'),
('m827',K,'birdOzone','fin (-0.3034)','fin 0.3034','sign of the exponent','Bird absorbers (C225)'),
('m828',K,'birdWater','fin 0.6828) + fin','fin 0.6828) - fin','sign of the linear term','Bird absorbers (C225)'),
('m829',K,'birdAerosol','1 + tau - rpow','1 + tau + rpow','sign in the aerosol exponent','Bird absorbers (C225)'),
('m830',K,'birdGases','fin (-0.0127)','fin 0.0127','transmittance above one','Bird transmittances'),
('m831',S,'kimber','if soiling i < max_soiling then soiling i else max_soiling','if soiling i < max_soiling then max_soiling else soiling i','clip reversed','soiling monotone (C226)'),
('m832',S,'graceWindows','cleaning_threshold < accumulated_rainfall i','accumulated_rainfall i < cleaning_threshold','cleaned when dry','soiling (C226)'),
('m833',S,'hsuMass','cleaning_threshold ≤ accum_rain i','cleaning_threshold < accum_rain i','strict threshold','cleaning at the threshold'),
('m834',S,'tiltedMassRate','horiz_mass_rate * cosd','horiz_mass_rate * sind','dust by the sine of tilt','tilt and dust (C226)'),
('m835',S,'tiltedMassRate','maximum (pm10 i - pm2_5 i) 0','(pm10 i - pm2_5 i)','no floor under the coarse share','hsu mass'),
('m836',S,'slideAmt','sind (surface_tilt i)','cosd (surface_tilt i)','cosine of tilt','snow slides (C226)'),
('m837',S,'slideAmt','poa_irradiance i / can_slide_coefficient < temp_air i','temp_air i < poa_irradiance i / can_slide_coefficient','slides when cold','snow slides (C226)'),
('m838',S,'fullyCoveredNrel','threshold_depth ≤ d i','threshold_depth < d i','strict depth','snow cover'),
('m839',D,'erbsDf','npwhere (0.8 < kt) 0.165 df','npwhere (0.8 < kt) 0.615 df','digits transposed','Erbs shape (C222)'),
('m840',D,'boland','a_coeff * (kt - b_coeff)','a_coeff * (b_coeff - kt)','sign of the exponent','Boland shape (C222)'),
]
