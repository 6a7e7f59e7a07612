T='Model/Times.lean'; L='Model/LocationMethods.lean'; F='Model/Fits.lean'
MUTS=[
('m686',T,'epochOrdinal',': ℕ := 719163',': ℕ := 719162','off by one','dates of instants'),
('m687',T,'pandasToUtc','| some _ => ⟨some fun _ => 0, t.times⟩','| some z => ⟨some z, t.times⟩','not converted','UTC day of year'),
('m688',T,'readings','t.times.map (wall z)','t.times','zone ignored','clock readings',),
('m689',T,'epochOf','86400 * ((yearStart y : ℝ) - (epochOrdinal : ℝ))','86400 * ((yearStart y : ℝ) + 1 - (epochOrdinal : ℝ))','off by one day','day of year 1 is 1 January'),
('m690',T,'addDays','(aroundReal (d * (86400 * 1000000)) : ℝ) / 1000000','d * 86400','no rounding','microseconds'),
('m691',T,'addDays','| _ => .error .valueError','| _ => .ok epoch','NaN accepted','NaN raises'),
('m692',T,'toDoy','| .timestamp tz t => (pandasToDoy ⟨tz, [t]⟩)','| .timestamp tz t => (pandasToDoy ⟨none, [t + (match tz with | some z => z t | none => 0)]⟩)','local day for timestamps','kinds agree'),
('m693',T,'toOutput','| .timestamp _ _ => scalarOut l','| .timestamp _ _ => .ok (.array l)','array for a scalar','scalar result'),
('m694',T,'toOutput','| .index t => .ok (.series t l)','| .index t => .ok (.array l)','array for an index','Series on that index'),
('m695',T,'toDatetimeIndex','| .array doy => doyToDatetimeindex doy epoch_year','| .array doy => doyToDatetimeindex doy 2014','epoch_year ignored','day in epoch_year'),
('m696',T,'nrelDistance','67','64','delta_t','(constant)'),
('m697',T,'getExtraRadiation','let d := if m = "pyephem" then','let d := if m = "nrel" then','swapped','method'),
('m698',T,'getExtraRadiation','Irradiance.getExtraRadiation d solar_constant method','Irradiance.getExtraRadiation d 1366.1 method','solar constant ignored','solar constant'),
('m699',T,'localizeFold0','sInf {u | wall z u = w}','sSup {u | wall z u = w}','last instant','first instant'),
('m700',T,'localizeFold0','w - offsetBefore z (sInf {u | w ≤ wall z u})','w','gap read as UTC','offset before the gap'),
('m701',T,'localizeToUtc','| .datetime (some _) u => .ok [u]','| .datetime (some _) u => .ok [localizeFold0 locTz u]','localized twice','localized unchanged'),
('m702',T,'localizeToUtc','| .pandas ⟨none, l⟩ => mapErr (localizeRaise locTz) l','| .pandas ⟨none, l⟩ => .ok (l.map (localizeFold0 locTz))','no raise','pandas raises'),
('m703',T,'calcTime','fun thetime => f thetime - value','fun thetime => f thetime','value ignored','attribute has the value'),
('m704',T,'calcTime','lb ub xtol','ub ub xtol','wrong bracket','bracket'),
('m705',T,'calcTime','| none => .error .attributeError','| none => .error .valueError','wrong error','AttributeError'),
('m706',L,'init','| some a => .ok ⟨latitude, longitude, zone, a, name⟩','| some a => .ok ⟨longitude, latitude, zone, a, name⟩','swapped','keeps coordinates'),
('m707',L,'init','lookupAltitude raster latitude longitude','lookupAltitude raster longitude latitude','swapped','altitude looked up'),
('m708',L,'fromTmy','if tmy2 then "City" else "Name"','if tmy2 then "Name" else "City"','swapped','name'),
('m709',L,'fromTmy','.ok (o, tmy_data, tmy_data)','.ok (o, tmy_data, none)','weather not set','weather attribute'),
('m710',L,'fromEpw','(need data_ "city")','(need data_ "City")','wrong key','EPW name'),
('m711',L,'construct','(some altitude.num)','none','altitude dropped','altitude of the file'),
('m712',L,'construct','if kwargs ≠ [] then .error .typeError','if False then .error .typeError','keywords ignored','keywords raise'),
('m713',L,'getSolarposition','| none => Atmosphere.alt2pres loc.altitude','| none => 101325','sea level','standard pressure at the altitude'),
('m714',L,'getSolarposition','| some p => p','| some _ => Atmosphere.alt2pres loc.altitude','given pressure ignored','given pressure'),
('m715',L,'getSolarposition','(some loc.altitude) (some pressure)','none (some pressure)','altitude not passed','altitude passed'),
('m716',L,'getClearsky','| none => .values (List.replicate n (Atmosphere.alt2pres loc.altitude))','| none => .values (List.replicate n 101325)','sea level','pressure at altitude'),
('m717',L,'getClearsky','let kwargs := popped kwargs "pressure"','let kwargs := kwargs','not popped','pressure accepted'),
('m718',L,'getClearsky','| some sp => .ok sp','| some _ => solpos pressure','given position ignored','given position used'),
('m719',L,'getClearsky','| some _ => popped kwargs "linke_turbidity"','| some _ => popped (popped kwargs "linke_turbidity") "interp_turbidity"','interp accepted','both raise'),
('m720',L,'getClearsky','if ∃ p ∈ kwargs, p.1 ≠ "aod700" ∧ p.1 ≠ "precipitable_water" then','if False then','unknown accepted','accepted keywords'),
('m721',L,'getClearsky','| some v => v.isTrue\n        | none => false','| some v => v.isTrue\n        | none => true','default perez','default model'),
('m722',L,'getClearsky','loc.altitude (dni_extra.getD i nan) perez','0 (dni_extra.getD i nan) perez','altitude ignored','(site altitude)'),
('m723',L,'getClearsky','  else .error .valueError\n\n/-! ### Sunrise','  else .ok []\n\n/-! ### Sunrise','unknown model accepted','unknown model raises'),
('m724',L,'getSunRiseSetTransit','kw.how kw.delta_t s','kw.how (some 67) s','delta_t ignored','delegates'),
('m725',L,'getSunRiseSetTransit','sunRiseSetTransitGeometric t loc.latitude loc.longitude','sunRiseSetTransitGeometric t loc.longitude loc.latitude','swapped','coordinates'),
('m726',L,'getSunRiseSetTransit','else (.error .valueError, s)','else (.ok [], s)','unknown accepted','unknown method raises'),
('m727',L,'given','| some v => .ok ((List.range n).map v.at)','| some _ => other','keyword ignored','given turbidity'),
('m728',F,'solveQuad','(-b + Fl.sqrt (b ^ 2 - 4 * a * c)) / (2 * a)','(-b - Fl.sqrt (b ^ 2 - 4 * a * c)) / (2 * a)','other root','recovers'),
('m729',F,'levelCoeffs','.ok (a, solveQuad a b (c - p_ac_0), solveQuad a b c)','.ok (a, solveQuad a b (c - p_ac_0), solveQuad a b (c - p_ac_0))','start from rating','recovers Pso'),
('m730',F,'levelCoeffs','| [] => .error .typeError','| [] => .ok (nan, nan, nan)','no error','TypeError for missing level'),
('m731',F,'extractC','k.getD 1 nan / k.getD 0 nan','k.getD 1 nan','slope','C1 relative'),
('m732',F,'fitSandia','let x (d : String) : Fl := v d - v_nom','let x (d : String) : Fl := v d','not centred','recovers'),
('m733',F,'fitSandia','.ok ⟨p_ac_0, dc.1, v_nom, s.1, c.1, dc.2, s.2, c.2, p_nt⟩','.ok ⟨p_ac_0, dc.1, v_nom, s.1, c.1, dc.2, c.2, s.2, p_nt⟩','C2 and C3 swapped','recovers'),
('m734',F,'mPerDegLon','Fl.cos (fin Real.pi / 180 * meanlat)','Fl.cos meanlat','degrees as radians','arcs'),
('m735',F,'toXY','(c.2 * mPerDegLon meanlat, c.1 * mPerDegLat)','(c.1 * mPerDegLat, c.2 * mPerDegLon meanlat)','not swapped','(x, y)'),
('m736',F,'latlonToXY','| .one lat lon => .ok [toXY lat (lat, lon)]','| .one lat lon => .ok [toXY 0 (lat, lon)]','equator','one pair'),
('m737',F,'latlonToXY','mean (l.map Prod.fst)','mean (l.map Prod.snd)','mean longitude','mean latitude'),
('m738',F,'defaultOptions','[0, -12, -fin 0.1, 0, 0]','[0, -12, -fin 0.1, -1, 0]','bound','physical range'),
('m739',F,'defaultOptions','1 / Fl.sqrt (g / 1000)','1 / (g / 1000)','root dropped','weights'),
('m740',F,'defaultOptions','[eta_max, -6, 0, fin 1e-3, fin 1e-3]','[eta_max, 6, 0, fin 1e-3, fin 1e-3]','start outside','start feasible'),
('m741',F,'update','kwargs.foldl (fun (d : PyDict FitOption) p => d.set p.1 p.2) d','d','kwargs ignored','override'),
('m742',F,'pNames','["k_a", "k_d", "tc_d", "k_rs", "k_rsh"]','["k_a", "k_d", "tc_d", "k_rsh", "k_rs"]','swapped','names'),
('m743',F,'adrWrapper','k_a k_d tc_d k_rs k_rsh)','k_a k_d tc_d k_rsh k_rs)','swapped','names'),
('m744',F,'defaultOptions','("x_scale", .vec [eta_max','("x_scale", .vec [1','scale','ValueError without positive efficiency'),
]
