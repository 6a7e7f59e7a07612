import Verif.Model.IoRemote

/-! # Model of the weather services in `pvlib/iotools`: names, units, missing values, time ranges

acis.py, era5.py, merra2.py, meteonorm.py, nasa_power.py, psm4.py, solaranywhere.py, solargis.py, solcast.py.  Transport (HTTP, JSON, XML,
CSV dialects) is not modelled: a response is a table of named columns of numbers. -/

namespace Pvlib.IoServices
open Pvlib.Calendar Pvlib.Panond Pvlib.IoIndex Pvlib.IoRemote

noncomputable section

/-- A named column. (Used for pvlib/iotools/nasa_power.py:149.) -/
structure Column where
  name : String
  values : List Fl

/-- `d.get(key, default)`. (Used for pvlib/iotools/psm4.py:185.) -/
def getDefault (d : List (String × String)) (key default : String) : String :=
  match d with
  | [] => default
  | (k, v) :: rest => if k = key then v else getDefault rest key default

/-- `data.rename(columns=d)`. (Used for pvlib/iotools/nasa_power.py:166.) -/
def rename (d : List (String × String)) (t : List Column) : List Column := t.map fun c => ⟨getDefault d c.name c.name, c.values⟩

/-- `{v: k for k, v in d.items()}`: the last key of each value. (Used for pvlib/iotools/nasa_power.py:122.) -/
def reverseMap (d : List (String × String)) : List (String × String) := d.reverse.map fun p => (p.2, p.1)

open Classical in
/-- `x.replace(code, np.nan)` of a value. (Used for pvlib/iotools/nasa_power.py:162.) -/
def replaceCode (code x : Fl) : Fl := if x = code then .nan else x

/-- `df.replace(code, np.nan)`. (Used for pvlib/iotools/nasa_power.py:162.) -/
def replaceAll (code : Fl) (t : List Column) : List Column := t.map fun c => ⟨c.name, c.values.map (replaceCode code)⟩

/-! ### Solcast and Solargis -/

/-- `ParameterMap`, pvlib/iotools/solcast.py:12-16, pvlib/iotools/solargis.py:18-22. -/
structure ParameterMap where
  service : String
  pvlib : String
  conversion : Fl → Fl

/-- One pass of the loop, pvlib/iotools/solcast.py:423-429, pvlib/iotools/solargis.py:206-212: if there is a column with the service's
name, it is renamed, and all columns that now have the pvlib name are converted. -/
def convertStep (t : List Column) (m : ParameterMap) : List Column :=
  if ∃ c ∈ t, c.name = m.service then
    t.map fun c =>
      let name := if c.name = m.service then m.pvlib else c.name
      ⟨name, if name = m.pvlib then c.values.map m.conversion else c.values⟩
  else t

/-- The loop, pvlib/iotools/solcast.py:422-429, pvlib/iotools/solargis.py:205-212. -/
def convertAll (maps : List ParameterMap) (t : List Column) : List Column := maps.foldl convertStep t

/-- `VARIABLE_MAP`, pvlib/iotools/solcast.py:20-46. -/
def solcastMap : List ParameterMap :=
  [⟨"air_temp", "temp_air", id⟩, ⟨"surface_pressure", "pressure", fun x => x * 100⟩, ⟨"dewpoint_temp", "temp_dew", id⟩,
    ⟨"gti", "poa_global", id⟩, ⟨"wind_speed_10m", "wind_speed", id⟩, ⟨"wind_direction_10m", "wind_direction", id⟩,
    ⟨"azimuth", "solar_azimuth", fun x => Fl.mod (-x) 360⟩, ⟨"precipitable_water", "precipitable_water", fun x => x / 10⟩,
    ⟨"zenith", "solar_zenith", id⟩, ⟨"clearsky_dhi", "dhi_clear", id⟩, ⟨"clearsky_dni", "dni_clear", id⟩,
    ⟨"clearsky_ghi", "ghi_clear", id⟩, ⟨"clearsky_gti", "poa_global_clear", id⟩]

/-- `_solcast2pvlib` (the columns), pvlib/iotools/solcast.py:403-430. -/
def solcastTable (t : List Column) : List Column := convertAll solcastMap t

/-- `period_mid`, pvlib/iotools/solcast.py:417-418. -/
def solcastMid (period_end period : ℚ) : ℚ := period_end - period / 2

/-- `VARIABLE_MAP`, pvlib/iotools/solargis.py:26-53. -/
def solargisMap : List ParameterMap :=
  [⟨"GHI", "ghi", id⟩, ⟨"GHI_C", "ghi_clear", id⟩, ⟨"GHIc", "ghi_clear", id⟩, ⟨"DNI", "dni", id⟩, ⟨"DNI_C", "dni_clear", id⟩,
    ⟨"DNIc", "dni_clear", id⟩, ⟨"DIF", "dhi", id⟩, ⟨"GTI", "poa_global", id⟩, ⟨"GTI_C", "poa_global_clear", id⟩,
    ⟨"GTIc", "poa_global_clear", id⟩, ⟨"SE", "solar_elevation", id⟩, ⟨"SA", "solar_azimuth", fun x => x + 180⟩,
    ⟨"TEMP", "temp_air", id⟩, ⟨"TD", "temp_dew", id⟩, ⟨"AP", "pressure", fun x => x * 100⟩, ⟨"RH", "relative_humidity", id⟩,
    ⟨"WS", "wind_speed", id⟩, ⟨"WD", "wind_direction", id⟩, ⟨"INC", "aoi", id⟩, ⟨"PWAT", "precipitable_water", fun x => x / 10⟩]

/-- `NA_9_COLUMNS`, pvlib/iotools/solargis.py:62-63. -/
def solargisMinusNine : List String :=
  ["GHI", "GHIc", "DNI", "DNIc", "DIF", "GTI", "GIc", "KT", "PAR", "PREC", "PWAT", "SDWE", "SFWE"]

/-- The table of `get_solargis`, pvlib/iotools/solargis.py:198-212. -/
def solargisTable (map_variables : Bool) (t : List Column) : List Column :=
  let t := t.map fun c => if c.name ∈ solargisMinusNine then ⟨c.name, c.values.map (replaceCode (-9))⟩ else c
  if map_variables then convertAll solargisMap t else t

/-- The argument `time_resolution`: an integer or a string. (Used for pvlib/iotools/solargis.py:161.) -/
inductive Resolution where
  | minutes (n : ℤ)
  | text (s : String)

/-- `TIME_RESOLUTION_MAP`, pvlib/iotools/solargis.py:11-15. -/
def solargisResolution : Resolution → Option String
  | .minutes n => if n = 5 then some "MIN_5" else if n = 10 then some "MIN_10" else if n = 15 then some "MIN_15"
      else if n = 30 then some "MIN_30" else if n = 60 then some "HOURLY" else none
  | .text s => if s = "PT05M" then some "MIN_5" else if s = "PT5M" then some "MIN_5" else if s = "PT10M" then some "MIN_10"
      else if s = "PT15M" then some "MIN_15" else if s = "PT30" then some "MIN_30" else if s = "PT60M" then some "HOURLY"
      else if s = "PT1H" then some "HOURLY" else if s = "P1D" then some "DAILY" else if s = "P1M" then some "MONTHLY"
      else if s = "P1Y" then some "YEARLY" else none

/-- `TIME_RESOLUTION_MAP.get(time_resolution, time_resolution).upper()`, pvlib/iotools/solargis.py:161 (all entries of the map are in
upper case); `upper` is Python's. -/
def solargisSummarization (upper : String → String) (r : Resolution) : Except PyErr String :=
  match solargisResolution r with
  | some s => .ok s
  | none => match r with
    | .minutes _ => .error .attributeError
    | .text s => .ok (upper s)

/-! ### NASA POWER, ERA5, MERRA-2 -/

/-- `VARIABLE_MAP`, pvlib/iotools/nasa_power.py:13-30. -/
def nasaMap : List (String × String) :=
  [("ALLSKY_SFC_SW_DWN", "ghi"), ("ALLSKY_SFC_SW_DIFF", "dhi"), ("ALLSKY_SFC_SW_DNI", "dni"), ("ALLSKY_SRF_ALB", "albedo"),
    ("ALLSKY_SFC_LW_DWN", "longwave_down"), ("CLRSKY_SFC_SW_DIFF", "dhi_clear"), ("CLRSKY_SFC_SW_DNI", "dni_clear"),
    ("CLRSKY_SFC_SW_DWN", "ghi_clear"), ("PS", "pressure"), ("RH2M", "relative_humidity"), ("T2M", "temp_air"), ("T2MDEW", "temp_dew"),
    ("TQV", "precipitable_water"), ("TOA_SW_DWN", "ghi_extra"), ("WS2M", "wind_speed_2m"), ("WS10M", "wind_speed")]

/-- `df[name] = f(df[name])` if there is such a column. (Used for pvlib/iotools/nasa_power.py:168-172.) -/
def update (name : String) (f : Fl → Fl) (t : List Column) : List Column :=
  t.map fun c => if c.name = name then ⟨c.name, c.values.map f⟩ else c

/-- The table of `get_nasa_power`, pvlib/iotools/nasa_power.py:162-172. -/
def nasaTable (fill_value : Fl) (map_variables : Bool) (t : List Column) : List Column :=
  let df := replaceAll fill_value t
  if map_variables then
    update "precipitable_water" (fun x => x / 10) (update "pressure" (fun x => x * 1000) (rename nasaMap df))
  else df

/-- The parameters requested, pvlib/iotools/nasa_power.py:122-123. -/
def nasaRequest (parameters : List String) : List String := parameters.map fun p => getDefault (reverseMap nasaMap) p p

/-- `VARIABLE_MAP`, pvlib/iotools/era5.py:8-26. -/
def era5Map : List (String × String) :=
  [("d2m", "temp_dew"), ("t2m", "temp_air"), ("sp", "pressure"), ("ssrd", "ghi"), ("fdir", "bhi"), ("tp", "precipitation"),
    ("strd", "longwave_down"), ("2m_dewpoint_temperature", "temp_dew"), ("2m_temperature", "temp_air"), ("surface_pressure", "pressure"),
    ("surface_solar_radiation_downwards", "ghi"), ("total_sky_direct_solar_radiation_at_surface", "bhi"),
    ("total_precipitation", "precipitation"), ("surface_thermal_radiation_downwards", "longwave_down")]

/-- `UNITS.get(shortname, _same)`, pvlib/iotools/era5.py:29-60, 206. -/
def era5Units (shortname : String) : Fl → Fl :=
  if shortname ∈ ["d2m", "t2m", "sst", "skt"] then fun x => x - 273.15
  else if shortname ∈ ["ssrd", "fdir", "strd"] then fun x => x / 3600
  else if shortname = "tp" then fun x => x * 100
  else id

/-- The table of `get_era5`, pvlib/iotools/era5.py:203-208. -/
def era5Table (map_variables : Bool) (t : List Column) : List Column :=
  if map_variables then rename era5Map (t.map fun c => ⟨c.name, c.values.map (era5Units c.name)⟩) else t

/-- The variables requested, pvlib/iotools/era5.py:131-132. -/
def era5Request (names : List String) : List String := names.map fun p => getDefault (reverseMap era5Map) p p

/-- `VARIABLE_MAP`, pvlib/iotools/merra2.py:7-17. -/
def merra2Map : List (String × String) :=
  [("SWGDN", "ghi"), ("SWGDNCLR", "ghi_clear"), ("ALBEDO", "albedo"), ("LWGNT", "longwave_net"), ("LWGAB", "longwave_down"),
    ("T2M", "temp_air"), ("PS", "pressure"), ("TOTEXTTAU", "aod550"), ("TQV", "precipitable_water")]

/-- The table of `get_merra2`, pvlib/iotools/merra2.py:187-205; every column comes with its own code for missing values. -/
def merra2Table (map_variables : Bool) (t : List (Column × Fl)) : List Column :=
  let df := t.map fun p => (⟨p.1.name, p.1.values.map (replaceCode p.2)⟩ : Column)
  if map_variables then rename merra2Map (update "T2M" (fun x => x - 273.15) df) else df

/-- The metadata lines of a MERRA-2 response, pvlib/iotools/merra2.py:180-183, and the lines left for the table. -/
def merra2Header : List Text → List (Text × Text) → Except PyErr (List (Text × Text) × List Text)
  | [], d => .ok (d, [])
  | line :: rest, d =>
    let line := (line.reverse.dropWhile isSpace).reverse
    if line = [] then .ok (d, rest)
    else match splitOn ',' line with
      | key :: _ :: _ => merra2Header rest (put d key (line.drop (key.length + 1)))
      | _ => .error .valueError

/-- The variables paired with datasets, pvlib/iotools/merra2.py:155-158, 170. -/
def merra2Pairs (names : List String) (dataset : String ⊕ List String) : List (String × String) :=
  names.zip (match dataset with | .inl d => List.replicate names.length d | .inr ds => ds)

/-! ### PSM4 -/

/-- `VARIABLE_MAP`, pvlib/iotools/psm4.py:39-56. -/
def psm4Map : List (String × String) :=
  [("GHI", "ghi"), ("DHI", "dhi"), ("DNI", "dni"), ("Clearsky GHI", "ghi_clear"), ("Clearsky DHI", "dhi_clear"),
    ("Clearsky DNI", "dni_clear"), ("Solar Zenith Angle", "solar_zenith"), ("Temperature", "temp_air"), ("Dew Point", "temp_dew"),
    ("Relative Humidity", "relative_humidity"), ("Pressure", "pressure"), ("Wind Speed", "wind_speed"),
    ("Wind Direction", "wind_direction"), ("Surface Albedo", "albedo"), ("Precipitable Water", "precipitable_water"), ("AOD", "aod")]

/-- `REQUEST_VARIABLE_MAP`, pvlib/iotools/psm4.py:61-78. -/
def psm4RequestMap : List (String × String) :=
  [("ghi", "ghi"), ("dhi", "dhi"), ("dni", "dni"), ("ghi_clear", "clearsky_ghi"), ("dhi_clear", "clearsky_dhi"),
    ("dni_clear", "clearsky_dni"), ("solar_zenith", "solar_zenith_angle"), ("temp_air", "air_temperature"), ("temp_dew", "dew_point"),
    ("relative_humidity", "relative_humidity"), ("pressure", "surface_pressure"), ("wind_speed", "wind_speed"),
    ("wind_direction", "wind_direction"), ("albedo", "surface_albedo"), ("precipitable_water", "total_precipitable_water"), ("aod", "aod")]

/-- The parameters requested, pvlib/iotools/psm4.py:185, 325, 461. -/
def psm4Request (parameters : List String) : List String := parameters.map fun p => getDefault psm4RequestMap p p

/-- A row's Year, Month, Day, Hour and Minute. (Used for pvlib/iotools/psm4.py:1069.) -/
structure Psm4Row where
  (year month day hour minute : ℕ)

/-- The naive time of a row, pvlib/iotools/psm4.py:1069. -/
def psm4Stamp (r : Psm4Row) : Except PyErr Stamp :=
  match ofYMD r.year r.month r.day with
  | .error e => .error e
  | .ok d => match ofHM r.hour r.minute with
    | .error e => .error e
    | .ok m => .ok (stamp d.ordinal m)

/-- The index of `read_nsrdb_psm4`, pvlib/iotools/psm4.py:1069-1072: offset in hours, and seconds UTC. -/
def psm4Index (time_zone : ℤ) (rows : List Psm4Row) : Except PyErr (ℤ × List ℤ) :=
  match each psm4Stamp rows with
  | .error e => .error e
  | .ok times => match etcOffset time_zone with
    | .error e => .error e
    | .ok offset => .ok (offset, times.map fun t => instant t (3600 * offset))

/-! ### ACIS -/

/-- A cell of a table of `get_acis_station_data`, pvlib/iotools/acis.py:416-418; `float` is Python's. -/
def acisCell (float : Text → Except PyErr Fl) (trace_val : Fl) (cell : Text) : Except PyErr Fl :=
  if cell = ['M'] then .ok .nan
  else if cell = ['T'] then .ok trace_val
  else float cell

/-- A cell of the gridded tables, pvlib/iotools/acis.py:158, 243, 321. -/
def acisGridCell (x : Fl) : Fl := replaceCode (-999) x

/-- The metadata altitude of `_get_acis` from the elevation the server states, pvlib/iotools/acis.py:63-67, 72-74. -/
def acisAltitude (elev : Option Fl) : Option Fl := elev.map fun e => e * 0.3048

/-- The altitude of `get_acis_available_stations`, pvlib/iotools/acis.py:511. -/
def acisStationAltitude (elev : Fl) : Fl := elev

/-! ### Meteonorm -/

/-- `VARIABLE_MAP`, pvlib/iotools/meteonorm.py:12-26. -/
def meteonormMap : List (String × String) :=
  [("global_horizontal_irradiance", "ghi"), ("diffuse_horizontal_irradiance", "dhi"), ("direct_normal_irradiance", "dni"),
    ("direct_horizontal_irradiance", "bhi"), ("global_clear_sky_irradiance", "ghi_clear"),
    ("diffuse_clear_sky_irradiance", "dhi_clear"), ("direct_normal_clear_sky_irradiance", "dni_clear"),
    ("direct_horizontal_clear_sky_irradiance", "bhi_clear"), ("diffuse_tilted_irradiance", "poa_diffuse"),
    ("direct_tilted_irradiance", "poa_direct"), ("global_tilted_irradiance", "poa"), ("temperature", "temp_air"),
    ("dew_point_temperature", "temp_dew")]

/-- The parameters requested, pvlib/iotools/meteonorm.py:579-580. -/
def meteonormRequest (parameters : List String) : List String := parameters.map fun p => getDefault (reverseMap meteonormMap) p p

/-- The table of `_parse_meteonorm`: columns without values are dropped, pvlib/iotools/meteonorm.py:606-612, 626-627. -/
def meteonormTable (map_variables : Bool) (t : List (String × Option (List Fl))) : List Column :=
  let data := t.filterMap fun p => p.2.map fun v => (⟨p.1, v⟩ : Column)
  if map_variables then rename meteonormMap data else data

/-- `data.index.mid`, pvlib/iotools/meteonorm.py:615-622. -/
def intervalMid (left right : ℚ) : ℚ := left + (right - left) / 2

/-! ### Requested time ranges

A time argument is a wall clock time (in seconds) with or without an offset from UTC. -/

/-- A time argument. (Used for pvlib/iotools/meteonorm.py:547.) -/
structure Time where
  wall : ℤ
  offset : Option ℤ

/-- The moment `_get_meteonorm` requests, pvlib/iotools/meteonorm.py:547-549: the wall clock time, with 'Z' (UTC). -/
def meteonormMoment (t : Time) : ℤ := t.wall

/-- The moment `get_merra2` requests, pvlib/iotools/merra2.py:133-141. -/
def merra2Moment (t : Time) : ℤ := match t.offset with
  | none => t.wall
  | some o => t.wall - o

/-- The day (UTC) `get_era5` requests, pvlib/iotools/era5.py:119-126. -/
def era5Day (t : Time) : ℤ := (match t.offset with
  | none => t.wall
  | some o => t.wall - o) / 86400

/-- The day (UTC) `get_nasa_power` requests, pvlib/iotools/nasa_power.py:118-119, 128-129, 135. -/
def nasaDay (t : Time) : ℤ := t.wall / 86400

/-- The moments `get_solaranywhere` requests, pvlib/iotools/solaranywhere.py:164-174; `none`: typical year. -/
def solaranywhereRange (start stop : Option Time) : Except PyErr (Option (ℤ × ℤ)) :=
  match start, stop with
  | none, none => .ok none
  | some s, some e => .ok (some (s.wall - s.offset.getD 0, e.wall - e.offset.getD 0))
  | _, _ => .error .attributeError

/-! ### SolarAnywhere files -/

/-- The key-value pairs, pvlib/iotools/solaranywhere.py:274-277; `parts` is the text cut at the slashes. -/
def solaranywherePairs : List Text → List (Text × Text) → Except PyErr (List (Text × Text))
  | [], d => .ok d
  | i :: rest, d =>
    if ':' ∈ i then
      match splitOn ':' i with
      | [k, v] => solaranywherePairs rest (put d (strip k) (strip v))
      | _ => .error .valueError
    else solaranywherePairs rest d

/-- The additional metadata, pvlib/iotools/solaranywhere.py:274-277; `text` is the rest of the first line. -/
def solaranywhereMeta (text : Text) (d : List (Text × Text)) : Except PyErr (List (Text × Text)) :=
  solaranywherePairs (splitOn '/' (text.filter (· ≠ '"'))) d

/-- The table of `read_solaranywhere`, pvlib/iotools/solaranywhere.py:289. -/
def solaranywhereTable (t : List Column) : List Column := replaceAll (-999) t

end

end Pvlib.IoServices
