L='Model/Spectrl2.lean'; P='Model/Panond.lean'; X='Model/IoIndex.lean'; T='Model/IoTables.lean'; O='Model/Polling.lean'; Q='Model/IoRemote.lean'; V='Model/IoServices.lean'
MUTS=[
('m592',L,'transmittances','fin (-c.ozone) * ozone * ozone_mass','fin (-c.ozone) * ozone','ozone mass dropped','ozone transmittance'),
('m593',L,'transmittances','Fl.exp (-scattering_albedo * optical_thickness * relative_airmass)','Fl.exp (scattering_albedo * optical_thickness * relative_airmass)','sign','transmittances at most one'),
('m594',L,'transmittances','Fl.exp (-(1 - scattering_albedo) * optical_thickness * relative_airmass)','Fl.exp (-scattering_albedo * optical_thickness * relative_airmass)','complement dropped','Tas*Taa = Ta'),
('m595',L,'atWavelength','let Itilt := Ibeam + Isky + Iground','let Itilt := Ibeam + Isky','ground dropped','global = sum'),
('m596',L,'atWavelength','maximum (cosd a.aoi) 0','cosd a.aoi','clip dropped','beam nonnegative'),
('m597',L,'atWavelength','wavelength ≤ 450','wavelength < 450','boundary','blue correction'),
('m598',L,'atWavelength','let ghi := Id * cosZ + Is','let ghi := Id + Is','cosine','ground reflected of ghi'),
('m599',L,'spectrl2','| some d => allWavelengths a d coeffs\n  | none => match dayofyear with','| some d => allWavelengths a (dayofyear.getD d) coeffs\n  | none => match dayofyear with','argument wins','index wins'),
('m600',L,'spectrl2','| none => .error .valueError','| none => allWavelengths a 1 coeffs','default','dayofyear required'),
('m601',P,'numType','| none => .str value\n  else','| none => .str []\n  else','text lost','non-numbers kept as text'),
('m602',P,'elementType',"(splitOn ',' element)","(splitOn ';' element)",'separator','lists split at commas'),
('m603',P,'strip','((s.dropWhile isSpace).reverse.dropWhile isSpace).reverse','s.dropWhile isSpace','right strip dropped','strip both ends'),
('m604',P,'level','/ 2','/ 1','indent','two blanks per level'),
('m605',P,'keyValue','| k :: v :: _ => (strip k, some (elementType py (strip v)))','| k :: v :: _ => (strip k, some (elementType py v))','no strip','values stripped'),
('m606',P,'step','dictSet [] kv.1 (.value kv.2)','[]','first entry dropped','new level holds own value'),
('m607',P,'step','s.levels.take (indent_lvl_1 + 1) ++ [new_level]','s.levels ++ [new_level]','stack not cut','siblings'),
('m608',P,'run','run (next :: rest)','run rest','line skipped','every line'),
('m609',P,'splitlines','if parts.getLast? = some [] then parts.dropLast else parts','parts','last empty line','splitlines'),
('m610',X,'tmy3Date','if r.hour = 24 then d.next else d','d','24:00 not moved','24:00 is next day'),
('m611',X,'tmy3Date','(if d.month = 2 ∧ d.day = 29 then d.next else d)','d','leap day kept','no leap day'),
('m612',X,'tmy3Dates','replaceLast (y + 1) data_ymd','.ok data_ymd','last year','last row in next year'),
('m613',X,'tmy3Index','60 * (r.hour % 24)','60 * r.hour','24 hours twice','time of day'),
('m614',X,'localize','TZ * 3600','TZ * 60','units','offset in hours'),
('m615',X,'pyInt','⌈x⌉','⌊x⌋','floor','truncation'),
('m616',X,'tmy2Stamp','60 * (r.hour - 1)','60 * r.hour','hour ending','start of hour'),
('m617',X,'tmy2Index','r.yy + 1900','r.yy + 2000','century','1900s'),
('m618',X,'cut','cut (cursor + w) ws','cut (cursor + w + 1) ws','gap','consecutive fields'),
('m619',X,'tmy2Angle','minutes / 60','minutes','minutes','degrees'),
('m620',X,'epwStamp','coerce_year.getD r.year','r.year','coerce ignored','coerced year'),
('m621',X,'srmlStamp','df_time - 40','df_time - 60','minutes','HHMM subtraction'),
('m622',X,'srmlStamp','df_time % 100 > 60','df_time % 100 ≥ 60','boundary','HHMM subtraction'),
('m623',X,'srmlOffset','-8 * 3600','8 * 3600','sign','PST'),
('m624',X,'crnStamp','utc_date / 100 % 100','utc_date % 100','month','date'),
('m625',X,'bsrnStamp','1440 * (day - 1)','1440 * day','day','first day'),
('m626',T,'mapColumns',"'_' :: col.drop 3","col.drop 3",'underscore','instrument number'),
('m627',T,'mapColumns',"if col.head? = some '7'","if False",'7 columns','7-channels'),
('m628',T,'maskColumn','if f = (99 : Fl)','if f = (0 : Fl)','flag','99 is bad'),
('m629',T,'flagName','columns.idxOf name - 1','columns.idxOf name','own name','flag named by column before'),
('m630',T,'surfradCell','9999.9','999.9','code','missing'),
('m631',T,'crnCell','column ≠ "CRX_VN" ∧ ','','string column','CRX_VN'),
('m632',T,'withBlanks','| [w] => [w]','| [w] => [w + 1]','last','no blank at end'),
('m633',T,'fileDays','«end».ordinal + 1 - start.ordinal','«end».ordinal - start.ordinal','last day dropped','every day'),
('m634',T,'nextMonth','⟨d.year + 1, 1, 1⟩','⟨d.year, 1, 1⟩','year','december'),
('m635',T,'fetchAll','.ok (ts, f :: ms)','.ok (ts, ms)','missing not recorded','missing files'),
('m636',T,'fetchAll','| .raises e => .error e','| .raises _ => fetchAll fetch fs','swallowed','other exceptions propagate'),
('m637',T,'dayFile','d.year % 100, d.doy','d.year % 100, d.day','day','file names'),
('m638',T,'getDays','| none => .error .valueError','| none => .error .indexError','error','no file raises ValueError'),
('m639',T,'getSurfrad','getDays (read true)','getDays (read _map_variables)','bug fixed','as the code does'),
('m640',T,'getBsrn','| none => .ok ⟨[], empty, filenames, missing⟩','| none => .error .valueError','raises','empty table'),
('m641',T,'scanLine','- 1) :: s.nrows',') :: s.nrows','length','record lines'),
('m642',T,'records','(lines.length - 1)','lines.length','last','record lines'),
('m643',T,'recordLines','start + 1','start','header included','record lines'),
('m644',T,'pairRows','(a ++ b) :: pairRows','(b ++ a) :: pairRows','order','pairs'),
('m645',T,'bsrnCell','99.9 : Fl)','9.9 : Fl)','code','missing'),
('m646',T,'bsrnLatLon','(lat - 90, lon - 180)','(lat - 90, lon)','lon','coordinates'),
('m647',O,'era5Loop','> timeout','≥ timeout','boundary','timeout'),
('m648',O,'solaranywhereLoop','clock n - start_time > timeout','clock n > timeout','start','timeout'),
('m649',O,'solaranywhereLoop','⟨.failed, n + 1, 5 * n⟩','⟨.timeout, n + 1, 5 * n⟩','outcome','failure reported'),
('m650',Q,'camsLoop','lstripHash key','key','hash','keys'),
('m651',Q,'camsIndex','time_step = "1M" ∧ label ≠ some "left"','time_step = "1M"','left','left label'),
('m652',Q,'camsIndex','(label = none ∧ time_step ≠ "1M")','(label = none)','monthly','monthly default right'),
('m653',Q,'stepHours','some (15 / 60)','some 15','units','hours'),
('m654',Q,'camsValue','if integrated then .ok x','if ¬ integrated then .ok x','inverted','integrated'),
('m655',Q,'camsValue','* 60 / 60 / 60) else x)','* 60 / 60) else x)','units','hours of month'),
('m656',Q,'pvgisInputs','put inputs key (strip value)','put inputs key value','strip','inputs'),
('m657',Q,'pvgisRows','if strip line = [] then ([], rest)','if strip line = [] then pvgisRows rest','blank ignored','until blank'),
('m658',Q,'pvgisTmyCsv','lines.drop (13 + 8760)','lines.drop (12 + 8760)','off by one','rest'),
('m659',Q,'npRoll','-k % (n : ℤ)).toNat) ++ rows.take ((-k','k % (n : ℤ)).toNat) ++ rows.take ((k','direction','roll'),
('m660',Q,'etcOffset','-12 ≤ tz ∧ tz ≤ 14','-14 ≤ tz ∧ tz ≤ 12','sign','zones'),
('m661',Q,'tmyPostprocess','then 1990','then 2000','default','1990'),
('m662',Q,'aspect','surface_azimuth - 180','180 - surface_azimuth','sign','aspect'),
('m663',Q,'horizon','p.1 < 360','p.1 ≤ 360','boundary','one north'),
('m664',V,'convertStep','if name = m.pvlib then','if c.name = m.service then','own only','convert all of that name'),
('m665',V,'solcastMap','Fl.mod (-x) 360','Fl.mod x 360','sign','azimuth'),
('m666',V,'solcastMid','period_end - period / 2','period_end - period','mid','mid'),
('m667',V,'solargisTable','if c.name ∈ solargisMinusNine then','if True then','all columns','-9 only there'),
('m668',V,'solargisSummarization','| .minutes _ => .error .attributeError','| .minutes _ => .ok ""','error','unknown int'),
('m669',V,'nasaTable','x * 1000','x * 100','kPa','pressure'),
('m670',V,'nasaTable','let df := replaceAll fill_value t','let df := t','fill','missing'),
('m671',V,'era5Units','x / 3600','x','units','W'),
('m672',V,'era5Table','(t.map fun c => ⟨c.name, c.values.map (era5Units c.name)⟩)','t','units','units'),
('m673',V,'merra2Table','update "T2M" (fun x => x - 273.15) df','df','K','temp'),
('m674',V,'merra2Header','line.drop (key.length + 1)','line.drop key.length','comma','value'),
('m675',V,'psm4Index','3600 * offset','60 * offset','units','utc'),
('m676',V,'acisCell',"cell = ['T'] then .ok trace_val","cell = ['T'] then .ok .nan",'trace','trace value'),
('m677',V,'acisAltitude','e * 0.3048','e','feet','metres'),
('m678',V,'meteonormTable','if map_variables then rename meteonormMap data','if ¬ map_variables then rename meteonormMap data','inverted','map'),
('m679',V,'merra2Moment','t.wall - o','t.wall + o','sign','UTC'),
('m680',V,'era5Day','t.wall - o','t.wall','offset','UTC day'),
('m681',V,'solaranywhereRange','| _, _ => .error .attributeError','| _, _ => .ok none','accepted','both or none'),
('m682',V,'solaranywherePairs','put d (strip k) (strip v)','put d k (strip v)','strip','keys'),
('m683',V,'solaranywhereMeta',"(text.filter (· ≠ '\"'))",'text','quotes','quotes removed'),
('m684',V,'solaranywhereTable','-999','-99','code','missing'),
('m685',V,'reverseMap','d.reverse.map','d.map','first wins','last key'),
]
