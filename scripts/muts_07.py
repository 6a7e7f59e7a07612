D='Model/SingleDiode.lean'; S='Model/Small.lean'; T='Model/Store.lean'; Q='Model/IoRequests.lean'
MUTS=[
('m745',D,'solveVd','s.chandrupatla f 0 (estimateVoc p.photocurrent p.saturation_current p.nNsVth)','s.chandrupatla f 0 (fin 0.5 * estimateVoc p.photocurrent p.saturation_current p.nNsVth)','half the bracket','chandrupatla finds the solution (C212)'),
('m746',D,'bishop88IFromV','(fun x => (bishop88Grads x p).grad_v) voltage p','(fun x => (bishop88Grads x p).grad_i) voltage p','wrong derivative passed to newton','Newton converges (C211)'),
('m747',D,'bishop88VFromI','(fun x => (bishop88Grads x p).grad_i) (startPoint p) p','(fun x => (bishop88Grads x p).grad_i) 0 p','Newton starts at 0','Newton starts at estimate_voc and falls (C211)'),
('m748',D,'bishop88IFromV','(bishop88 x p).v - voltage) (fun','voltage - (bishop88 x p).v) (fun','sign of the residual only, not of the derivative','Newton converges (C211)'),
('m749',D,'gradI','-g_diode - gSh p','-g_diode + gSh p','sign of the shunt in the gradient','Newton converges (C211)'),
('m750',D,'solveVd','else if m = "newton" then s.newton f f\' x0','else if m = "newton" then s.brentq f 0 (startPoint p)','newton replaced by brentq','method newton runs Newton (C211)'),
('m751',S,'stripBrackets',"c = ' ' || c = '[' || c = ']'","c = '[' || c = ']'",'spaces not stripped','any brackets and spaces (C207)'),
('m752',S,'words','.filter fun w => w ≠ []','.filter fun w => w ≠ [] ∧ w.length < 4','long words dropped','coefficients become the numbers (C207)'),
('m753',S,'parseRawSam','lines.drop 2','lines.drop 1','one header line too few dropped','lines of units have no effect (C207)'),
('m754',S,'parseRawSam','header.map underscore','header','names not normalised','spaces become underscores (C207)'),
('m755',S,'adrColumn','.ok (col.set k c)','.ok (col.set (k+1) c)','wrong row replaced','cells outside the row (C207)'),
('m756',S,'withOrigin','| .gzip p => [.openedGzip p, .closed p]','| .gzip p => [.openedGzip p]','gzip file left open','closed exactly once (C208)'),
('m757',S,'withOrigin','| .object => []','| .object => [.closed []]','caller\'s file closed','left open (C208)'),
('m758',S,'readEpw','"http".toList.isPrefixOf f.str','"https".toList.isPrefixOf f.str','http not recognised','URL (C208)'),
('m759',S,'readBsrn','".gz".toList.isSuffixOf','".gz".toList.isPrefixOf','prefix instead of suffix','compressed files (C208)'),
('m760',S,'readPanond','(.error .typeError, [])','withOrigin contents parse .object','open files accepted','refuses open files (C208)'),
('m761',S,'shapeOfMaxSize','if size best < size t then t else best','if size best < size t then best else t','smallest','starts with the common shape (C209)'),
('m762',S,'prepareNewtonInputs','x0.isScalar && args.all','x0.isScalar || args.all','only x0 checked','whichever arguments are arrays (C209)'),
('m763',S,'override','| some x => some x','| some _ => defaults.lookup key','defaults win','user keywords win (C209)'),
('m764',S,'getPandasIndex','args.findSome?','args.reverse.findSome?','last','first pandas argument (C209)'),
('m765',T,'buildWeather','let r := r.2.copy r.1\n  let weather','let r := (data, r.2)\n  let weather','no copy: default columns written into the caller\'s frame','inputs unchanged (store claims)'),
('m766',T,'completeIrradiance','mapStore (fun s a => s.copy a) s data','(data, s)','no copy in complete_irradiance','inputs unchanged (store claims)'),
('m767',T,'presetConfig','let r := s.copy config','let r := (config, s)','preset dictionary changed in place','later chains get the same preset'),
('m768',T,'merra2Query','let r := s.copy parameters','let r := (parameters, s)','query parameters shared','one variable per request'),
('m769',T,'trimmedKwargs','let r := s.copy method_kwargs','let r := (method_kwargs, s)','full_output popped from the caller\'s dict','keywords unchanged'),
('m770',T,'monthMiddlesStore','r.2.put r.1 "2"','r.2.put mdays "2"','calendar.mdays changed','leap years do not change the calendar'),
('m771',T,'newSystem','| some a => s.alloc (buildKwargs ["dc_ohmic_percent"] (s.read a))','| some a => (a, s)','losses dictionary shared with the array','what is shared'),
('m772',T,'newArray','orNew t.2 args.array_losses_parameters','orNew t.2 args.module_parameters','wrong dictionary','what is shared'),
('m773',T,'pvwattsLosses','if c.pvwattsLosses then','if c.percent then','wrong switch','results of the calls'),
('m774',T,'runModelFromPoa','mapStore buildIrrad r.2 data','(data, r.2)','total_irrad is the caller\'s frame','results are new objects'),
('m775',Q,'fetchSolcast','response.status = 200','response.status < 300','other success codes accepted','exception unless 200'),
('m776',Q,'withPlace','[("latitude", latitude), ("longitude", longitude)]','[("latitude", longitude), ("longitude", latitude)]','swapped','metadata'),
('m777',Q,'getSolcastLive','"live/radiation_and_weather"','"forecast/radiation_and_weather"','wrong endpoint','endpoints'),
('m778',Q,'dictCall','.error .typeError','.ok (kwargs ++ named)','repeated keyword accepted','TypeError'),
('m779',Q,'timeParam','| .text s => .str s','| .text _ => .none','relative times dropped','start and end sent'),
('m780',Q,'joined','",".intercalate','";".intercalate','separator','lists joined by commas'),
('m781',Q,'meteonormQuery','("surface_tilt", .num a.surface_tilt), ("surface_azimuth", .num a.surface_azimuth)','("surface_tilt", .num a.surface_azimuth), ("surface_azimuth", .num a.surface_tilt)','swapped','tilt and azimuth sent'),
('m782',Q,'fetchMeteonorm','if response.ok then','if response.status = 200 then','only 200 accepted','HTTPError exactly for errors'),
('m783',Q,'meteonormTmy','("situation", .str t.terrain_situation)','("situation", .str "open")','argument ignored','terrain sent'),
('m784',Q,'fourDecimals',"(if x < 0 then ['-'] else [])","(if x ≤ 0 then ['-'] else [])",'minus zero','coordinates'),
('m785',Q,'fourDigits','Char.ofNat (48 + n / 100 % 10), Char.ofNat (48 + n / 10 % 10)','Char.ofNat (48 + n / 10 % 10), Char.ofNat (48 + n / 100 % 10)','digits swapped','coordinates to four decimals'),
('m786',Q,'roundEven','if Even ⌊y⌋ then ⌊y⌋ else ⌊y⌋ + 1','⌊y⌋ + 1','half up','rounding'),
('m787',Q,'nsrdbQuery','fourDecimals a.longitude) ++ " " ++ String.ofList (fourDecimals a.latitude)','fourDecimals a.latitude) ++ " " ++ String.ofList (fourDecimals a.longitude)','swapped','point is longitude latitude'),
('m788',Q,'nsrdbQuery','("utc", .str (lowerBool a.utc))','("utc", .str (lowerBool a.leap_day))','wrong flag','utc sent'),
('m789',Q,'nsrdbQuery','a.url.getD default_url','default_url','url ignored','url argument'),
]
