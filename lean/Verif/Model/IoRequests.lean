import Verif.Model.IoServices
import Verif.Model.ToolsMisc

/-! # Model of the requests sent by `pvlib/iotools`: solcast.py, meteonorm.py, psm4.py, sodapro.py, pvgis.py; and of `pvlib/_deprecation.py`

A service is a function from the request to its reply; `requests.get` itself (transport, timeouts, encoding of the query) is not
modelled.  A request is its address, its query parameters (`requests` leaves out those with value None; the model keeps them, as the
dict does) and its headers. -/

namespace Pvlib.IoRequests
open Pvlib.IoServices Pvlib.Tools

noncomputable section

/-- The value of a query parameter. (Used for pvlib/iotools/solcast.py:115-120.) -/
inductive QVal where
  | none
  | num (x : Fl)
  | int (n : ℤ)
  | str (s : String)

/-- The arguments of `requests.get`. (Used for pvlib/iotools/solcast.py:469-473.) -/
structure Request where
  url : String
  params : PyDict QVal
  headers : PyDict String := []

/-- The reply of the service: HTTP status and content. (Used for pvlib/iotools/solcast.py:475-483.) -/
structure Reply (β : Type) where
  status : ℕ
  body : β

/-- `response.ok`: not a client or server error. (Used for pvlib/iotools/meteonorm.py:593.) -/
def Reply.ok {β : Type} (r : Reply β) : Bool := !(400 ≤ r.status && r.status < 600)

/-- How a call ends: an exception of Python, `requests.HTTPError`, a plain `Exception` carrying the reply, or a result. (Used for
pvlib/iotools/solcast.py:483, pvlib/iotools/meteonorm.py:595.) -/
inductive Outcome (α : Type) where
  | raised (e : PyErr)
  | httpError
  | exception
  | result (a : α)

/-- `d1 | kwargs` as in `dict(a=.., **kwargs)`: TypeError for a repeated keyword. (Used for pvlib/iotools/solcast.py:115-120.) -/
def dictCall (named kwargs : PyDict QVal) : Except PyErr (PyDict QVal) :=
  if ∃ p ∈ kwargs, ∃ q ∈ named, p.1 = q.1 then .error .typeError else .ok (named ++ kwargs)

/-- `d.update(kwargs)`, as in `{.., **kwargs}`. (Used for pvlib/iotools/meteonorm.py:560-572.) -/
def dictMerge (d kwargs : PyDict QVal) : PyDict QVal := kwargs.foldl (fun (d : PyDict QVal) p => d.set p.1 p.2) d

/-! ### Solcast -/

/-- `_get_solcast` up to the conversion of the table, pvlib/iotools/solcast.py:433-483; the content of the reply is its list of named
tables. -/
def fetchSolcast {T : Type} (service : Request → Reply (List (String × T))) (convert : T → T) (endpoint : String) (params : PyDict QVal)
    (api_key : String) (map_variables : Bool) : Outcome T :=
  let response := service ⟨"https://api.solcast.com.au/data" ++ "/" ++ endpoint, params, [("Authorization", "Bearer " ++ api_key)]⟩
  if response.status = 200 then
    match response.body with
    | [] => .raised .indexError
    | (_, df) :: _ => .result (if map_variables then convert df else df)
  else .exception

/-- The last part of the four functions, pvlib/iotools/solcast.py:122-129, 228-235, 306-313, 393-400. -/
def withPlace {T : Type} (latitude longitude : Fl) (o : Outcome T) : Outcome (T × List (String × Fl)) :=
  match o with
  | .raised e => .raised e
  | .httpError => .httpError
  | .exception => .exception
  | .result data => .result (data, [("latitude", latitude), ("longitude", longitude)])

/-- `get_solcast_tmy`, pvlib/iotools/solcast.py:49-129. -/
def getSolcastTmy {T : Type} (service : Request → Reply (List (String × T))) (convert : T → T) (latitude longitude : Fl) (api_key : String)
    (kwargs : PyDict QVal) (map_variables : Bool := true) : Outcome (T × List (String × Fl)) :=
  match dictCall [("latitude", .num latitude), ("longitude", .num longitude), ("format", .str "json")] kwargs with
  | .error e => .raised e
  | .ok params => withPlace latitude longitude (fetchSolcast service convert "tmy/radiation_and_weather" params api_key map_variables)

/-- `get_solcast_historic`, pvlib/iotools/solcast.py:132-235. -/
def getSolcastHistoric {T : Type} (service : Request → Reply (List (String × T))) (convert : T → T) (latitude longitude : Fl) (start : QVal)
    (api_key : String) (stop duration : QVal) (kwargs : PyDict QVal) (map_variables : Bool := true) : Outcome (T × List (String × Fl)) :=
  match dictCall [("latitude", .num latitude), ("longitude", .num longitude), ("start", start), ("end", stop), ("duration", duration),
      ("api_key", .str api_key), ("format", .str "json")] kwargs with
  | .error e => .raised e
  | .ok params => withPlace latitude longitude (fetchSolcast service convert "historic/radiation_and_weather" params api_key map_variables)

/-- `get_solcast_forecast`, pvlib/iotools/solcast.py:238-313. -/
def getSolcastForecast {T : Type} (service : Request → Reply (List (String × T))) (convert : T → T) (latitude longitude : Fl)
    (api_key : String) (kwargs : PyDict QVal) (map_variables : Bool := true) : Outcome (T × List (String × Fl)) :=
  match dictCall [("latitude", .num latitude), ("longitude", .num longitude), ("format", .str "json")] kwargs with
  | .error e => .raised e
  | .ok params => withPlace latitude longitude (fetchSolcast service convert "forecast/radiation_and_weather" params api_key map_variables)

/-- `get_solcast_live`, pvlib/iotools/solcast.py:316-400. -/
def getSolcastLive {T : Type} (service : Request → Reply (List (String × T))) (convert : T → T) (latitude longitude : Fl)
    (api_key : String) (kwargs : PyDict QVal) (map_variables : Bool := true) : Outcome (T × List (String × Fl)) :=
  match dictCall [("latitude", .num latitude), ("longitude", .num longitude), ("format", .str "json")] kwargs with
  | .error e => .raised e
  | .ok params => withPlace latitude longitude (fetchSolcast service convert "live/radiation_and_weather" params api_key map_variables)

/-! ### Meteonorm -/

/-- A `start` or `end` argument: a moment `pd.Timestamp` understands, or other text ('now', '+3hours'). (Used for
pvlib/iotools/meteonorm.py:545-558.) -/
inductive TimeArg where
  | absent
  | text (s : String)
  | time (t : Time)

/-- pvlib/iotools/meteonorm.py:545-551, 552-558; `stamp` is `strftime("%Y-%m-%dT%H:%M:%SZ")` of a wall clock time. -/
def timeParam (stamp : ℤ → String) : TimeArg → QVal
  | .absent => .none
  | .text s => .str s
  | .time t => .str (stamp (meteonormMoment t))

/-- A parameter that is a text or a list of numbers. (Used for pvlib/iotools/meteonorm.py:516-517, 584-585.) -/
inductive TextOrList where
  | text (s : String)
  | list (xs : List Fl)

/-- `",".join(map(str, xs))`; `str` is Python's `str` of a number. (Used for pvlib/iotools/meteonorm.py:517, 585.) -/
def joined (str : Fl → String) : TextOrList → String
  | .text s => s
  | .list xs => ",".intercalate (xs.map str)

/-- `TIME_STEP_MAP`, pvlib/iotools/meteonorm.py:28-34. -/
def meteonormSteps : List (String × String) :=
  [("1h", "1_hour"), ("h", "1_hour"), ("15min", "15_minutes"), ("1min", "1_minute"), ("min", "1_minute")]

/-- The arguments that all the Meteonorm functions have. (Used for pvlib/iotools/meteonorm.py:533-539.) -/
structure MeteonormArgs where
  latitude : Fl
  longitude : Fl
  api_key : String
  parameters : String ⊕ List String := .inl "all"
  surface_tilt : Fl := 0
  surface_azimuth : Fl := 180
  horizon : TextOrList := .text "auto"
  url : String := "https://api.meteonorm.com/v1/"

/-- The request of `_get_meteonorm`, pvlib/iotools/meteonorm.py:545-591; `urljoin` of an address that ends in a slash appends. -/
def meteonormQuery (stamp : ℤ → String) (str : Fl → String) (a : MeteonormArgs) (start stop : TimeArg) (time_step : Option String)
    (endpoint : String) (kwargs : PyDict QVal) : Request :=
  let params := dictMerge [("lat", .num a.latitude), ("lon", .num a.longitude), ("start", timeParam stamp start), ("end", timeParam stamp stop),
    ("parameters", .none), ("surface_tilt", .num a.surface_tilt), ("surface_azimuth", .num a.surface_azimuth),
    ("horizon", .none),
    ("frequency", match time_step with | none => .none | some s => .str (getDefault meteonormSteps s s)), ("response_format", .str "json")] kwargs
  let parameters := match a.parameters with | .inl s => [s] | .inr l => l
  let params := params.set "parameters" (.str (",".intercalate (meteonormRequest parameters)))
  let params := params.set "horizon" (.str (joined str a.horizon))
  ⟨a.url ++ endpoint, params, [("Authorization", "Bearer " ++ a.api_key)]⟩

/-- `_get_meteonorm`, pvlib/iotools/meteonorm.py:533-602; `parse` is `_parse_meteonorm`. -/
def fetchMeteonorm {β T : Type} (service : Request → Reply β) (parse : β → T) (q : Request) : Outcome T :=
  let response := service q
  if response.ok then .result (parse response.body) else .httpError

/-- `get_meteonorm_forecast_basic`, pvlib/iotools/meteonorm.py:37-125. -/
def meteonormForecastBasic (stamp : ℤ → String) (str : Fl → String) (a : MeteonormArgs) (start stop : TimeArg) : Request :=
  meteonormQuery stamp str a start stop none "forecast/basic" []

/-- `get_meteonorm_forecast_precision`, pvlib/iotools/meteonorm.py:128-214. -/
def meteonormForecastPrecision (stamp : ℤ → String) (str : Fl → String) (a : MeteonormArgs) (start stop : TimeArg)
    (time_step : String := "15min") : Request :=
  meteonormQuery stamp str a start stop (some time_step) "forecast/precision" []

/-- `get_meteonorm_observation_realtime`, pvlib/iotools/meteonorm.py:217-304. -/
def meteonormObservationRealtime (stamp : ℤ → String) (str : Fl → String) (a : MeteonormArgs) (start stop : TimeArg)
    (time_step : String := "15min") : Request :=
  meteonormQuery stamp str a start stop (some time_step) "observation/realtime" []

/-- `get_meteonorm_observation_training`, pvlib/iotools/meteonorm.py:307-399. -/
def meteonormObservationTraining (stamp : ℤ → String) (str : Fl → String) (a : MeteonormArgs) (start stop : TimeArg)
    (time_step : String := "15min") : Request :=
  meteonormQuery stamp str a start stop (some time_step) "observation/training" []

/-- The arguments that only `get_meteonorm_tmy` has. (Used for pvlib/iotools/meteonorm.py:402-409.) -/
structure MeteonormTmyArgs where
  terrain_situation : String := "open"
  albedo : Option Fl := none
  turbidity : TextOrList := .text "auto"
  random_seed : Option ℤ := none
  clear_sky_radiation_model : String := "esra"
  future_scenario : Option String := none
  future_year : Option ℤ := none

/-- `get_meteonorm_tmy`, pvlib/iotools/meteonorm.py:402-530. -/
def meteonormTmy (stamp : ℤ → String) (str : Fl → String) (a : MeteonormArgs) (t : MeteonormTmyArgs) (time_step : String := "1h") : Request :=
  meteonormQuery stamp str a .absent .absent (some time_step) "climate/tmy"
    [("situation", .str t.terrain_situation), ("turbidity", .str (joined str t.turbidity)),
      ("clear_sky_radiation_model", .str t.clear_sky_radiation_model),
      ("random_seed", match t.random_seed with | none => .none | some n => .int n),
      ("future_scenario", match t.future_scenario with | none => .none | some s => .str s),
      ("future_year", match t.future_year with | none => .none | some n => .int n), ("response_format", .str "json")]

/-! ### NSRDB PSM4 -/

/-- The decimal digits of a number. (Used for pvlib/iotools/psm4.py:180-181.) -/
def digits (n : ℕ) : List Char := if n < 10 then [Char.ofNat (48 + n)] else digits (n / 10) ++ [Char.ofNat (48 + n % 10)]

/-- Four digits of a number below 10000. (Used for pvlib/iotools/psm4.py:180-181.) -/
def fourDigits (n : ℕ) : List Char :=
  [Char.ofNat (48 + n / 1000 % 10), Char.ofNat (48 + n / 100 % 10), Char.ofNat (48 + n / 10 % 10), Char.ofNat (48 + n % 10)]

/-- The nearest integer, the even one of two. (Used for pvlib/iotools/psm4.py:180-181.) -/
def roundEven (y : ℝ) : ℤ := if Int.fract y = 1 / 2 then (if Even ⌊y⌋ then ⌊y⌋ else ⌊y⌋ + 1) else round y

/-- `('%9.4f' % x).strip()`, pvlib/iotools/psm4.py:180-181: the sign of a negative number, and its magnitude with four decimals. -/
def fourDecimals : Fl → List Char
  | .nan => "nan".toList
  | .pinf => "inf".toList
  | .ninf => "-inf".toList
  | .fin x =>
    let n := (roundEven (|x| * 10000)).toNat
    (if x < 0 then ['-'] else []) ++ digits (n / 10000) ++ '.' :: fourDigits (n % 10000)

/-- `str(b).lower()` of a boolean. (Used for pvlib/iotools/psm4.py:198-199.) -/
def lowerBool (b : Bool) : String := if b then "true" else "false"

/-- The arguments of the NSRDB functions. (Used for pvlib/iotools/psm4.py:81-87.) -/
structure NsrdbArgs where
  latitude : Fl
  longitude : Fl
  api_key : String
  email : String
  year : QVal
  time_step : ℤ := 60
  parameters : List String
  leap_day : Bool
  full_name : String := "pvlib python"
  affiliation : String := "pvlib python"
  utc : Bool := false
  url : Option String := none

/-- The request of the six NSRDB functions, pvlib/iotools/psm4.py:177-206, 318-346, 454-482, 593-621, 742-770, 891-919. -/
def nsrdbQuery (default_url : String) (a : NsrdbArgs) : Request :=
  ⟨a.url.getD default_url,
    [("api_key", .str a.api_key), ("full_name", .str a.full_name), ("email", .str a.email), ("affiliation", .str a.affiliation),
      ("reason", .str "pvlib python"), ("mailing_list", .str "false"),
      ("wkt", .str ("POINT(" ++ String.ofList (fourDecimals a.longitude) ++ " " ++ String.ofList (fourDecimals a.latitude) ++ ")")),
      ("names", a.year), ("attributes", .str (",".intercalate (psm4Request a.parameters))), ("leap_day", .str (lowerBool a.leap_day)),
      ("utc", .str (lowerBool a.utc)), ("interval", .int a.time_step)], []⟩

/-- `get_nsrdb_psm4_aggregated`, pvlib/iotools/psm4.py:81-218. -/
def nsrdbAggregated (a : NsrdbArgs) : Request :=
  nsrdbQuery "https://developer.nlr.gov/api/nsrdb/v2/solar/nsrdb-GOES-aggregated-v4-0-0-download.csv" a
/-- `get_nsrdb_psm4_tmy`, pvlib/iotools/psm4.py:221-358. -/
def nsrdbTmy (a : NsrdbArgs) : Request :=
  nsrdbQuery "https://developer.nlr.gov/api/nsrdb/v2/solar/nsrdb-GOES-tmy-v4-0-0-download.csv" a
/-- `get_nsrdb_psm4_conus`, pvlib/iotools/psm4.py:361-494. -/
def nsrdbConus (a : NsrdbArgs) : Request :=
  nsrdbQuery "https://developer.nlr.gov/api/nsrdb/v2/solar/nsrdb-GOES-conus-v4-0-0-download.csv" a
/-- `get_nsrdb_psm4_full_disc`, pvlib/iotools/psm4.py:497-633. -/
def nsrdbFullDisc (a : NsrdbArgs) : Request :=
  nsrdbQuery "https://developer.nlr.gov/api/nsrdb/v2/solar/nsrdb-GOES-full-disc-v4-0-0-download.csv" a
/-- `get_nsrdb_psm4_polar`, pvlib/iotools/psm4.py:636-782. -/
def nsrdbPolar (a : NsrdbArgs) : Request :=
  nsrdbQuery "https://developer.nlr.gov/api/nsrdb/v2/solar/nsrdb-polar-v4-0-0-download.csv" a
/-- `get_nsrdb_psm4_polar_tmy`, pvlib/iotools/psm4.py:785-931. -/
def nsrdbPolarTmy (a : NsrdbArgs) : Request :=
  nsrdbQuery "https://developer.nlr.gov/api/nsrdb/v2/solar/nsrdb-polar-tmy-v4-0-0-download.csv" a

/-! ### CAMS -/

/-- `TIME_STEPS_MAP`, pvlib/iotools/sodapro.py:36-37. -/
def camsSteps : List (String × String) := [("1min", "PT01M"), ("15min", "PT15M"), ("1h", "PT01H"), ("1d", "P01D"), ("1M", "P01M")]

/-- The arguments of `get_cams`. (Used for pvlib/iotools/sodapro.py:53-56.) -/
structure CamsArgs where
  latitude : Fl
  longitude : Fl
  start : Time
  stop : Time
  email : List Char
  identifier : String := "mcclear"
  altitude : Option Fl := none
  time_step : String := "1h"
  time_ref : String := "UT"
  verbose : Bool := false
  url : String := "api.soda-solardata.com"

/-- `email.replace('@', '%2540')`, pvlib/iotools/sodapro.py:204. -/
def escapeEmail (email : List Char) : List Char := email.flatMap fun c => if c = '@' then "%2540".toList else [c]

/-- The request of `get_cams` and whether it warns, pvlib/iotools/sodapro.py:181-236; `day` is `strftime('%Y-%m-%d')` of a day number,
`str` is Python's `str` of a number. -/
def camsQuery (str : Fl → String) (day : ℤ → String) (a : CamsArgs) : Except PyErr (Request × Bool) :=
  match PyDict.get? camsSteps a.time_step with
  | none => .error .valueError
  | some time_step_str =>
    let warns := a.verbose && (a.time_step != "1min" || a.time_ref != "UT")
    let verbose := if warns then false else a.verbose
    if a.identifier ∉ ["mcclear", "cams_radiation"] then .error .valueError
    else
      let altitude := match a.altitude with | none => "-999" | some h => str h
      let data_inputs := ";".intercalate (([("latitude", str a.latitude), ("longitude", str a.longitude), ("altitude", altitude),
        ("date_begin", day (a.start.wall / 86400)), ("date_end", day (a.stop.wall / 86400)), ("time_ref", a.time_ref),
        ("summarization", time_step_str), ("username", String.ofList (escapeEmail a.email)), ("verbose", lowerBool verbose)] :
          List (String × String)).map fun p => p.1 ++ "=" ++ p.2)
      .ok (⟨"https://" ++ a.url ++ "/service/wps" ++ "?DataInputs=" ++ data_inputs,
        [("Service", .str "WPS"), ("Request", .str "Execute"), ("Identifier", .str ("get_" ++ pyLower a.identifier)),
          ("version", .str "1.0.0"), ("RawDataOutput", .str "irradiation")], []⟩, warns)

/-- `get_cams`, pvlib/iotools/sodapro.py:53-251; `read` is `read_cams`. -/
def getCams {T : Type} (service : Request → Reply (List Char)) (read : List Char → Outcome T) (str : Fl → String) (day : ℤ → String)
    (a : CamsArgs) : Outcome T :=
  match camsQuery str day a with
  | .error e => .raised e
  | .ok (q, _) =>
    let res := service q
    if res.ok then read res.body
    else if "ows:ExceptionText".toList <:+: res.body then .httpError
    else .raised .indexError

/-! ### PVGIS files -/

/-- A file: a path (its last component) or an open file. (Used for pvlib/iotools/pvgis.py:315, 621.) -/
inductive FileArg where
  | path (name : List Char)
  | buffer

/-- `Path(name).suffix[1:].lower()`, pvlib/iotools/pvgis.py:370, 673: the text after the last dot, unless that dot is the first or the last
character. -/
def extension (name : List Char) : String :=
  let rest := name.reverse.takeWhile (· ≠ '.')
  if rest = [] ∨ name.length ≤ rest.length + 1 then "" else pyLower (String.ofList rest.reverse)

/-- The format, pvlib/iotools/pvgis.py:364-372, 669-675. -/
def fileFormat (file : FileArg) (pvgis_format : Option String) : Except PyErr String :=
  match pvgis_format with
  | some f => .ok f
  | none => match file with
    | .path name => .ok (extension name)
    | .buffer => .error .typeError

/-- `read_pvgis_hourly`, pvlib/iotools/pvgis.py:315-405; `json` and `csv` parse the content. -/
def readPvgisHourly {T : Type} (json csv : Except PyErr T) (file : FileArg) (pvgis_format : Option String) : Except PyErr T :=
  match fileFormat file pvgis_format with
  | .error e => .error e
  | .ok outputformat =>
    if outputformat = "json" then json else if outputformat = "csv" then csv else .error .valueError

/-- `read_pvgis_tmy`, pvlib/iotools/pvgis.py:621-718; the last step renames the columns. -/
def readPvgisTmy (epw json csv : Except PyErr (List Column)) (file : FileArg) (pvgis_format : Option String) (names : List (String × String))
    (map_variables : Bool) : Except PyErr (List Column) :=
  match fileFormat file pvgis_format with
  | .error e => .error e
  | .ok outputformat =>
    match (if outputformat = "epw" then epw else if outputformat = "json" then json else if outputformat = "csv" then csv
      else if outputformat = "basic" then .error .valueError else .error .valueError) with
    | .error e => .error e
    | .ok data => .ok (if map_variables then rename names data else data)

/-- A JSON value: text standing for a number or a string, or an object. (Used for pvlib/iotools/pvgis.py:247-252.) -/
inductive Json where
  | leaf (s : String)
  | obj (entries : List (String × Json))

/-- `j[key]`. (Used for pvlib/iotools/pvgis.py:248-252.) -/
def Json.item : Json → String → Except PyErr Json
  | .leaf _, _ => .error .typeError
  | .obj d, key => match PyDict.get? d key with
    | some v => .ok v
    | none => .error (.keyError key)

/-- `j[key] = v`. (Used for pvlib/iotools/pvgis.py:250-252.) -/
def Json.setItem : Json → String → Json → Except PyErr Json
  | .leaf _, _, _ => .error .typeError
  | .obj d, key, v => .ok (.obj (PyDict.set d key v))

/-- The metadata of a JSON file, pvlib/iotools/pvgis.py:248-252, 562-566. -/
def pvgisMeta (src : Json) : Except PyErr Json :=
  match src.item "meta" with
  | .error e => .error e
  | .ok (.leaf _) => .error .attributeError
  | .ok (.obj metadata) =>
    (src.item "inputs").bind fun inputs => ((Json.obj metadata).item "inputs").bind fun descriptions =>
      (inputs.setItem "descriptions" descriptions).bind fun inputs => .ok (.obj (PyDict.set metadata "inputs" inputs))

/-- The value of a decimal digit. (Used for pvlib/iotools/pvgis.py:254.) -/
def digitValue (c : Char) : Option ℕ := if '0' ≤ c ∧ c ≤ '9' then some (c.toNat - 48) else none

/-- The value of a text of digits. (Used for pvlib/iotools/pvgis.py:254.) -/
def digitsValue (s : List Char) : Option ℕ :=
  s.foldl (fun acc c => acc.bind fun n => (digitValue c).map fun d => 10 * n + d) (some 0)

/-- `pd.to_datetime(s, format='%Y%m%d:%H%M', utc=True)` of a text of thirteen characters, in minutes; ValueError unless the moment exists.
Called at pvlib/iotools/pvgis.py:254, 299, 569-570, 607.  (Shorter texts, which pandas may accept, are not modelled: ValueError.) -/
def pvgisStamp (s : List Char) : Except PyErr ℕ :=
  match s with
  | [y1, y2, y3, y4, m1, m2, d1, d2, ':', h1, h2, i1, i2] =>
    match digitsValue [y1, y2, y3, y4], digitsValue [m1, m2], digitsValue [d1, d2], digitsValue [h1, h2], digitsValue [i1, i2] with
    | some y, some m, some d, some h, some i =>
      if (⟨y, m, d⟩ : Calendar.Date).Valid ∧ h ≤ 23 ∧ i ≤ 59 then .ok (1440 * (⟨y, m, d⟩ : Calendar.Date).ordinal + 60 * h + i)
      else .error .valueError
    | _, _, _, _, _ => .error .valueError
  | _ => .error .valueError

/-! ### Deprecations -/

/-- The wrapper of `renamed_kwarg_warning`, pvlib/_deprecation.py:369-386: the keyword arguments the function is called with, and whether
it warns. -/
def renamedKwargs {α : Type} (old new : String) (kwargs : PyDict α) : Except PyErr (PyDict α × Bool) :=
  match PyDict.get? kwargs old with
  | none => .ok (kwargs, false)
  | some v =>
    if (PyDict.get? kwargs new).isSome then .error .valueError
    else .ok (PyDict.set (kwargs.filter fun p => p.1 ≠ old) new v, true)

/-- A call of a function decorated with `renamed_kwarg_warning`: its result and the number of warnings, pvlib/_deprecation.py:369-386. -/
def callRenamed {α β γ : Type} (old new : String) (func : List α → PyDict β → Except PyErr γ) (args : List α) (kwargs : PyDict β) :
    Except PyErr γ × ℕ :=
  match renamedKwargs old new kwargs with
  | .error e => (.error e, 0)
  | .ok (kwargs, warns) => (func args kwargs, if warns then 1 else 0)

/-- The release of removal in `_generate_deprecation_message`, pvlib/_deprecation.py:141-147. -/
def removalText (removal : Option String) (pending : Bool) : Except PyErr (Option String) := match removal with
  | none => .ok none
  | some r => if r = "" then .ok (some "soon") else if pending then .error .valueError else .ok (some ("in " ++ r))

/-- `_generate_deprecation_message` without a custom message, pvlib/_deprecation.py:137-164; `removal = none` is Python's None. -/
def deprecationMessage (since name alternative obj_type addendum : String) (removal : Option String) (pending : Bool) : Except PyErr String :=
  match removalText removal pending with
  | .error e => .error e
  | .ok w =>
    .ok ("The " ++ name ++ " " ++ obj_type ++
      (if pending then " will be deprecated in a future version"
        else " was deprecated in pvlib " ++ since ++ (match w with | some r => " and will be removed " ++ r | none => "")) ++
      "." ++ (if alternative ≠ "" then " Use " ++ alternative ++ " instead." else "") ++ (if addendum ≠ "" then " " ++ addendum else ""))

/-- A call of a function decorated with `deprecated`, pvlib/_deprecation.py:302-304: one warning, then the function. -/
def callDeprecated {α β γ : Type} (func : List α → PyDict β → Except PyErr γ) (args : List α) (kwargs : PyDict β) : Except PyErr γ × ℕ :=
  (func args kwargs, 1)

end
end Pvlib.IoRequests
