M='Model/Midc.lean'; V='Model/Pvfactors.lean'; A='Model/Spa.lean'; I='Model/Irradiance.lean'; F='Model/PvFunctions.lean'
MUTS=[
('m799',M,'timezone','"PST" then "Etc/GMT+8"','"PST" then "Etc/GMT-8"','sign of the zone','midc index (C219)'),
('m800',M,'parseStamp','ymdhm y mo d h mi','ymdhm y d mo h mi','day and month swapped','midc index (C219)'),
('m801',M,'parseStamp','let year := t.take 4','let year := t.take 2','two-digit year','midc index (C219)'),
('m802',M,'readMidcFromNrel','true (some f.header.length)','true none','usecols dropped: lines with a trailing field shift','nrel (C219)'),
('m803',M,'readMidcFromNrel','("begin", ymdText start), ("end", ymdText stop)','("begin", ymdText stop), ("end", ymdText start)','begin and end swapped','nrel (C219)'),
('m804',M,'rawDateTime','(t / 100) (t % 100)','(t % 100) (t / 100)','hours and minutes swapped','raw index (C219)'),
('m805',M,'formatIndexRaw','data.columns[3]?','data.columns[1]?','zone from another column','raw index (C219)'),
('m806',M,'readMidc','(variable_map c).getD c','(variable_map c).getD ""','unmapped names lost','midc file (C219)'),
('m807',M,'ymdText','(48 + d.day / 10)','(48 + d.month / 10)','wrong digit of the day','nrel request (C219)'),
('m808',V,'timeseries','fullLike solar_zenith surface_tilt','fullLike solar_zenith surface_azimuth','tilt from the azimuth','report (C220)'),
('m809',V,'fullLike','.ok (.ints (v.map trunc))','.ok (.floats v)','type of the array not kept','cut_off (C220)'),
('m810',V,'trunc','if 0 ≤ x then ⌊x⌋ else ⌈x⌉','⌊x⌋','floor instead of truncation','cut_off (C220)'),
('m811',V,'pyGet','l[(l.length + i).toNat]?','l[(-i).toNat]?','negative positions counted from the start','report (C220)'),
('m812',A,'refractionCorrection','-1.0 * (0.26667 + atmos_refract) ≤ e0','(0.26667 + atmos_refract) ≤ e0','switch above the horizon','apparent elevation continuous near the horizon (C221)'),
('m813',A,'localHourAngle','v + lon - alpha','v - lon - alpha','sign of the longitude','horizon (C221), directions'),
('m814',A,'topocentricAzimuth','Fl.mod (gamma + 180) 360','gamma + 180','azimuth not in one turn','azimuth in [0,360)'),
('m815',A,'nutationStep','s.2 + (c + d * jce) * Fl.cos arg','s.2 + (c + d * jce) / Fl.cos arg','division by a cosine','continuity (C221)'),
('m816',I,'klucher','npwhere (isnan F) 0 F','F','NaN for no global light','total_continuous (C218), night'),
('m817',I,'projectionRatio','maximum (cosd solar_zenith) 0.01745','cosd solar_zenith','no floor under the cosine','total_continuous (C218)'),
('m818',F,'pvwattsDc','(temp_cell - temp_ref)','(temp_ref - temp_cell)','sign of the temperature effect','warmer cell gives less (C217)'),
]
