I='Model/Irradiance.lean'; P='Model/PvSystem.lean'; F='Model/PvFunctions.lean'; M='Model/ModelChain.lean'; T='Model/Temperature.lean'
MUTS=[
('m872',P,'sapmTemps','("close_mount_glass_glass", [("a", .num (fin (-2.98))), ("b", .num (fin (-0.0471)))','("close_mount_glass_glass", [("a", .num (fin (-2.98))), ("b", .num (fin (-0.0594)))','wind coefficient of the row above','mountings (C240)'),
('m873',P,'sapmTemps','("open_rack_glass_polymer", [("a", .num (fin (-3.56))), ("b", .num (fin (-0.0750)))','("open_rack_glass_polymer", [("a", .num (fin (-3.56))), ("b", .num (fin (0.0750)))','sign of the wind coefficient','mountings (C240)'),
('m874',P,'pvsystTemps','[("u_c", .num 15), ("u_v", .num 0)]\n  else','[("u_c", .num 20), ("u_v", .num 0)]\n  else','insulated like semi-integrated','mountings (C240)'),
('m875',P,'inferTemperatureParams','if hasSub "freestanding" param_set then pvsystTemps "freestanding"','if hasSub "freestanding" param_set then pvsystTemps "insulated"','freestanding takes the insulated set','mountings (C240)'),
('m876',T,'pvsystCell','(1 - module_efficiency)','(1 + module_efficiency)','power taken out adds heat','PVsyst cell temperature'),
('m877',I,'klucher','sind (0.5 * surface_tilt) ^ 3','sind surface_tilt ^ 3','half angle lost','Klucher (C239)'),
('m878',I,'klucher','cos_tt ^ 2 * sind solar_zenith ^ 3','cos_tt ^ 3 * sind solar_zenith ^ 2','powers swapped','Klucher (C239)'),
('m879',I,'klucher','1 - (dhi / ghi) ^ 2','1 - dhi / ghi','square lost','Klucher (C239)'),
('m880',I,'haydaviesRb','let term1 := 1 - AI','let term1 := 1','circumsolar light counted twice','Hay-Davies (C239)'),
('m881',I,'reindl','sind (surface_tilt / 2) ^ 3','sind surface_tilt ^ 3','half angle lost','Reindl (C239)'),
('m882',I,'reindl','dhi * (term1 + term2 + term3)','dhi * (term1 + term3)','circumsolar light dropped','Reindl (C239)'),
('m883',I,'king','0.012 * solar_zenith - 0.04','0.012 * solar_zenith + 0.04','sign','King (C239)'),
('m884',I,'projectionRatio','maximum (cosd solar_zenith) 0.01745','cosd solar_zenith','floor of the denominator lost','Hay-Davies (C239)'),
('m885',F,'dcOhmsFromPercent','let imp := strings * imp_ref','let imp := imp_ref','strings not counted','wires (C238)'),
('m886',F,'dcOhmsFromPercent','let vmp := modules_per_string * vmp_ref','let vmp := strings * vmp_ref','strings for modules','wires (C238)'),
('m887',F,'dcOhmicLosses','resistance * current * current','resistance * current','voltage drop for power','wires (C238)'),
('m888',M,'effIrrad','fd * diffuse i','diffuse i','FD not applied','effective irradiance (C241)'),
('m889',M,'arrayIrradiance','none (some (am.relative i)) (some (albedo i))','none (some (am.relative i)) none','albedo of the data not passed on','albedo column (C241)'),
('m890',M,'poaFrame','("poa_diffuse", fun i => (p i).poa_diffuse)','("poa_diffuse", fun i => (p i).poa_sky_diffuse)','ground light not in the diffuse column','diffuse light (C241)'),
('m891',P,'PvArr.getIrradiance','let albedo := albedo.getD a.albedo','let albedo := a.albedo','albedo argument ignored','albedo column (C241)'),
]
