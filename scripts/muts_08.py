A='Model/Spa.lean'; P='Model/SolarPosition.lean'; I='Model/Irradiance.lean'; N='Model/Inverter.lean'; F='Model/PvFunctions.lean'
MUTS=[
('m790',A,'localHourAngle','Fl.mod (v + lon - alpha) 360','v + lon - alpha','hour angle not brought into one turn','whole turns of longitude (C213)'),
('m791',P,'locAST','Fl.mod (360 + gmst t - (-1) * longitude) 360','Fl.mod (360 + gmst t + (-1) * longitude) 360','sign of the longitude','sun rises earlier in the east'),
('m792',P,'hourAngleToHours','(hourangle - longitude - equation_of_time / 4) / 15','(hourangle + longitude - equation_of_time / 4) / 15','sign of the longitude','geometric rise and set move with longitude (C213)'),
('m793',I,'groundDiffuse','(1 - Fl.cos (radians surface_tilt)) * 0.5','(1 + Fl.cos (radians surface_tilt)) * 0.5','ground seen by the wrong side','ground light on the two sides adds to ghi*albedo (C214)'),
('m794',I,'beamComponent','maximum (dni * aoiProjection','(fun a _ => a) (dni * aoiProjection','no floor at zero','one side is dark (C214)'),
('m795',I,'king','(1 - cosd surface_tilt) / 2','(1 + cosd surface_tilt) / 2','both terms of King seen from above','two sides (C214)'),
('m796',N,'sandiaLimits','-1 * Fl.abs Pnt','-1 * Pnt','no absolute value: negative Pnt gives power','night tare is drawn (C215)'),
('m797',N,'sandiaLimits','if p_dc < Pso','if p_dc ≤ Pso','tare also at exactly Pso','start-up boundary'),
('m798',N,'sandiaMulti','let power_dc := Fl.sum p_dc','let power_dc := p_dc.headD 0','start-up decided from one input','all inputs are added'),
]
