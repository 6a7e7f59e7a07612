import Verif.Model.PvFunctions
import Verif.Model.Temperature
import Verif.Model.Inverter
import Verif.Model.Shading
import Verif.Model.ToolsMisc

/-! # Model of the classes of `pvlib/pvsystem.py` (lines 50-1548): mounts, `Array`, `PVSystem`

Parameter dicts are association lists (`PyDict`) of `PVal`s.  Per element, except for the cell temperature, whose Fuentes
model reads the whole series.  `__repr__` is not modelled.  Object identity (for instance that an inferred
`temperature_model_parameters` *is* the entry of the module-level table) is not modelled. -/

noncomputable section
open scoped Classical
namespace Pvlib.PvSystem
open Fl Pvlib.Tools Pvlib.PvFunctions

/-! ### Parameter dicts -/

/-- A value stored in a parameter dict (booleans are numbers, as in Python). (Used for pvlib/pvsystem.py:971-1001.) -/
inductive PVal where
  | num (x : Fl)
  | str (s : String)
  | nums (xs : List Fl)

/-- A value used as a number: a string or a list raises TypeError. (Used for pvlib/modelchain.py:1104.) -/
def PVal.toNum : PVal → Except PyErr Fl
  | .num x => .ok x
  | _ => .error .typeError

/-- `d[key]` used as a number. (Used for pvlib/pvsystem.py:1216-1325.) -/
def getNum (d : PyDict PVal) (key : String) : Except PyErr Fl := (argOf d key).bind PVal.toNum

/-- Several `d[key]`, in order. (Used for pvlib/pvsystem.py:1174-1214.) -/
def getNums (d : PyDict PVal) (keys : List String) : Except PyErr (List Fl) :=
  match keys with
  | [] => .ok []
  | k :: ks => (getNum d k).bind fun v => (getNums d ks).bind fun vs => .ok (v :: vs)

/-- All values of a keyword dict as numbers. (Used for pvlib/pvsystem.py:1174-1214.) -/
def numsOf (d : PyDict PVal) : Except PyErr (PyDict Fl) :=
  match d with
  | [] => .ok []
  | (k, v) :: rest => v.toNum.bind fun x => (numsOf rest).bind fun r => .ok ((k, x) :: r)

/-- `**_build_kwargs(keys, d)` for numeric parameters. (Used for pvlib/pvsystem.py:1174-1214.) -/
def numKwargs (keys : List String) (d : PyDict PVal) : Except PyErr (PyDict Fl) := numsOf (buildKwargs keys d)

/-- A keyword argument with a default. (Used for pvlib/pvsystem.py:1174-1214.) -/
def kwOr (kw : PyDict Fl) (key : String) (default : Fl) : Fl := (kw.get? key).getD default

/-- Keyword arguments without a default: a missing one raises TypeError. (Used for pvlib/pvsystem.py:503-517.) -/
def kwReq (kw : PyDict Fl) (keys : List String) : Except PyErr (List Fl) :=
  match keys with
  | [] => .ok []
  | k :: ks => match kw.get? k with
    | none => .error .typeError
    | some v => (kwReq kw ks).bind fun vs => .ok (v :: vs)

/-- `needle in hay` for strings. (Used for pvlib/pvsystem.py:1013-1029.) -/
def hasSub (needle hay : String) : Bool := hay.toList.tails.any fun t => needle.toList.isPrefixOf t

/-- `f'{x}'` for an optional string. (Used for pvlib/pvsystem.py:1013-1029.) -/
def fmtOpt : Option String → String
  | none => "None"
  | some s => s

/-! ### Mounts -/

/-- `FixedMount` and `SingleAxisTrackerMount`, pvlib/pvsystem.py:1419-1548. -/
inductive Mount where
  | fixed (surface_tilt surface_azimuth : Fl) (racking_model : Option String) (module_height : Option Fl)
  | tracker (axis_tilt axis_azimuth : Fl) (max_angle : Tracking.MaxAngle) (backtrack : Bool) (gcr cross_axis_tilt : Fl)
      (racking_model : Option String) (module_height : Option Fl)

/-- `mount.racking_model`. (Used for pvlib/pvsystem.py:963-1001.) -/
def Mount.racking : Mount → Option String
  | .fixed _ _ r _ => r
  | .tracker _ _ _ _ _ _ r _ => r

/-- `mount.module_height`. (Used for pvlib/pvsystem.py:1216-1325.) -/
def Mount.height : Mount → Option Fl
  | .fixed _ _ _ h => h
  | .tracker _ _ _ _ _ _ _ h => h

/-- `get_orientation`, pvlib/pvsystem.py:1453-1458, 1539-1548: (surface_tilt, surface_azimuth). -/
def Mount.orientation (m : Mount) (solar_zenith solar_azimuth : Fl) : Fl × Fl :=
  match m with
  | .fixed t a _ _ => (t, a)
  | .tracker at_ aa ma bt gcr cat _ _ =>
    let o := Tracking.singleaxis solar_zenith solar_azimuth at_ aa ma bt gcr cat
    (o.surface_tilt, o.surface_azimuth)

/-! ### `Array` -/

/-- The attributes of an `Array`, pvlib/pvsystem.py:971-1001. -/
structure PvArr where
  mount : Mount
  albedo : Fl
  surface_type : Option String
  module : Option String
  module_type : Option String
  module_parameters : PyDict PVal
  temperature_model_parameters : PyDict PVal
  modules_per_string : Fl
  strings : Fl
  array_losses_parameters : PyDict PVal

/-- `TEMPERATURE_MODEL_PARAMETERS['sapm']`, pvlib/temperature.py:16-21. -/
def sapmTemps : List (String × PyDict PVal) :=
  [("open_rack_glass_glass", [("a", .num (fin (-3.47))), ("b", .num (fin (-0.0594))), ("deltaT", .num 3)]),
   ("close_mount_glass_glass", [("a", .num (fin (-2.98))), ("b", .num (fin (-0.0471))), ("deltaT", .num 1)]),
   ("open_rack_glass_polymer", [("a", .num (fin (-3.56))), ("b", .num (fin (-0.0750))), ("deltaT", .num 3)]),
   ("insulated_back_glass_polymer", [("a", .num (fin (-2.81))), ("b", .num (fin (-0.0455))), ("deltaT", .num 0)])]

/-- `TEMPERATURE_MODEL_PARAMETERS['pvsyst']`, pvlib/temperature.py:22-24. -/
def pvsystTemps (name : String) : PyDict PVal :=
  if name = "freestanding" then [("u_c", .num 29), ("u_v", .num 0)]
  else if name = "insulated" then [("u_c", .num 15), ("u_v", .num 0)]
  else [("u_c", .num 20), ("u_v", .num 0)]

/-- `_infer_temperature_model_params`, pvlib/pvsystem.py:1013-1029. -/
def inferTemperatureParams (racking_model module_type : Option String) : PyDict PVal :=
  let param_set := fmtOpt racking_model ++ "_" ++ fmtOpt module_type
  match sapmTemps.lookup param_set with
  | some p => p
  | none =>
    if hasSub "freestanding" param_set then pvsystTemps "freestanding"
    else if hasSub "insulated" param_set then pvsystTemps "insulated"
    else if hasSub "semi_integrated" param_set then pvsystTemps "semi_integrated"
    else []

/-- `Array.__init__`, pvlib/pvsystem.py:963-1001 (`SURFACE_ALBEDOS.get(surface_type, 0.25)`). -/
def mkArray (mount : Mount) (albedo : Option Fl := none) (surface_type : Option String := none)
    (module : Option String := none) (module_type : Option String := none)
    (module_parameters : Option (PyDict PVal) := none) (temperature_model_parameters : Option (PyDict PVal) := none)
    (modules_per_string : Fl := 1) (strings : Fl := 1) (array_losses_parameters : Option (PyDict PVal) := none) :
    PvArr where
  mount := mount
  albedo := albedo.getD ((surface_type.bind fun s => Irradiance.surfaceAlbedos.lookup s).getD (fin 0.25))
  surface_type := surface_type
  module := module
  module_type := module_type
  module_parameters := module_parameters.getD []
  temperature_model_parameters := temperature_model_parameters.getD (inferTemperatureParams mount.racking module_type)
  modules_per_string := modules_per_string
  strings := strings
  array_losses_parameters := array_losses_parameters.getD []

/-- `_cell_type_dict`, pvlib/pvsystem.py:1043-1060. -/
def cellTypes : List (String × Option String) :=
  [("Multi-c-Si", some "multisi"), ("Mono-c-Si", some "monosi"), ("Thin Film", some "cigs"), ("a-Si/nc", some "asi"),
   ("CIS", some "cigs"), ("CIGS", some "cigs"), ("1-a-Si", some "asi"), ("CdTe", some "cdte"), ("a-Si", some "asi"),
   ("2-a-Si", none), ("3-a-Si", none), ("HIT-Si", some "monosi"), ("mc-Si", some "multisi"), ("c-Si", some "multisi"),
   ("Si-Film", some "asi"), ("EFG mc-Si", some "multisi"), ("GaAs", none), ("a-Si / mono-Si", some "monosi")]

/-- `_cell_type_dict[value]` (a number is never a key; the text of the KeyError for one is not modelled). (Used for pvlib/pvsystem.py:1031-1071.) -/
def cellTypeOf : PVal → Except PyErr (Option String)
  | .str s => match cellTypes.lookup s with
    | some c => .ok c
    | none => .error (.keyError s)
  | .num _ => .error (.keyError "")
  | .nums _ => .error .typeError

/-- `Array._infer_cell_type`, pvlib/pvsystem.py:1031-1071. -/
def inferCellType (module_parameters : PyDict PVal) : Except PyErr (Option String) :=
  match module_parameters.get? "Technology" with
  | some v => cellTypeOf v
  | none => match module_parameters.get? "Material" with
    | some v => cellTypeOf v
    | none => .ok none

/-- `Array.get_aoi`, pvlib/pvsystem.py:1073-1092. -/
def PvArr.getAoi (a : PvArr) (solar_zenith solar_azimuth : Fl) : Fl :=
  let o := a.mount.orientation solar_zenith solar_azimuth
  Irradiance.aoi o.1 o.2 solar_zenith solar_azimuth

/-- The tables `get_total_irradiance` uses. (Used for pvlib/pvsystem.py:1094-1172.) -/
structure Tables where
  perezTable : String → Option Irradiance.PerezTable
  spline : ℕ → ℕ → Fl → Fl

/-- Keyword arguments handed on to `get_total_irradiance`, pvlib/irradiance.py:282-285. -/
structure IrrKwargs where
  surface_type : Option String := none
  model_perez : String := "allsitescomposite1990"
  diffuse_components : Bool := false

/-- `Array.get_irradiance`, pvlib/pvsystem.py:1094-1172, at one instant.  `extra` is `get_extra_radiation` at that instant when
`solar_zenith` has a DatetimeIndex, `none` when it has not. -/
def PvArr.getIrradiance (tb : Tables) (a : PvArr) (extra : Option Fl) (solar_zenith solar_azimuth dni ghi dhi : Fl)
    (dni_extra airmass albedo : Option Fl) (model : String := "haydavies") (kw : IrrKwargs := {}) :
    Except PyErr Irradiance.Poa :=
  let albedo := albedo.getD a.albedo
  let dni_extra := dni_extra.getD (extra.getD 1367)
  let airmass := airmass.getD (Atmosphere.kastenyoung solar_zenith)
  let o := a.mount.orientation solar_zenith solar_azimuth
  Irradiance.getTotalIrradiance tb.perezTable tb.spline o.1 o.2 solar_zenith solar_azimuth dni ghi dhi (some dni_extra)
    (some airmass) albedo kw.surface_type model kw.model_perez kw.diffuse_components

/-- `iam.interp` with the keyword arguments found in the dict, pvlib/iam.py:425: `theta_ref`, `iam_ref` are required
(`normalize` is used as a truth value). -/
def iamInterpKw (mk : String → List Fl → List Fl → Except PyErr (Fl → Fl)) (aoi : Fl) (kw : PyDict PVal) : Except PyErr Fl :=
  match kw.get? "theta_ref", kw.get? "iam_ref", kw.get? "method", kw.get? "normalize" with
  | some (.nums t), some (.nums i), none, none => Iam.interp mk aoi t i
  | some (.nums t), some (.nums i), some (.str m), none => Iam.interp mk aoi t i m
  | some (.nums t), some (.nums i), none, some (.num b) => Iam.interp mk aoi t i (normalize := decide (¬ eqv b 0))
  | some (.nums t), some (.nums i), some (.str m), some (.num b) => Iam.interp mk aoi t i m (normalize := decide (¬ eqv b 0))
  | _, _, _, _ => .error .typeError

/-- `Array.get_iam`, pvlib/pvsystem.py:1174-1214: keyword arguments are the parameters of the model function's signature found
in `module_parameters`. -/
def PvArr.getIam (mk : String → List Fl → List Fl → Except PyErr (Fl → Fl)) (a : PvArr) (aoi : Fl)
    (iam_model : String := "physical") : Except PyErr Fl :=
  let model := pyLower iam_model
  let d := a.module_parameters
  if model = "ashrae" then (numKwargs ["b"] d).bind fun kw => .ok (Iam.ashrae aoi (kwOr kw "b" (fin 0.05)))
  else if model = "physical" then (numKwargs ["n", "K", "L", "n_ar"] d).bind fun kw =>
    .ok (Iam.physical aoi (kwOr kw "n" (fin 1.526)) (kwOr kw "K" 4) (kwOr kw "L" (fin 0.002)) (kw.get? "n_ar"))
  else if model = "martin_ruiz" then (numKwargs ["a_r"] d).bind fun kw => Iam.martinRuiz aoi (kwOr kw "a_r" (fin 0.16))
  else if model = "interp" then iamInterpKw mk aoi (buildKwargs ["theta_ref", "iam_ref", "method", "normalize"] d)
  else if model = "schlick" then .ok (Iam.schlick aoi)
  else if model = "sapm" then (getNums d ["B5", "B4", "B3", "B2", "B1", "B0"]).bind fun
    | [B5, B4, B3, B2, B1, B0] => .ok (Iam.sapm aoi B0 B1 B2 B3 B4 B5)
    | _ => .error .typeError
  else .error .valueError

/-- The weather series read by `get_cell_temperature`. (Used for pvlib/pvsystem.py:1216-1325.) -/
structure Weather where
  poa_global : ℕ → Fl
  temp_air : ℕ → Fl
  wind_speed : ℕ → Fl
  effective_irradiance : Option (ℕ → Fl)
  longwave_down : Option (ℕ → Fl)
  hours : ℕ → ℝ

/-- `Array.get_cell_temperature`, pvlib/pvsystem.py:1216-1325.  `sigma` is `scipy.constants.Stefan_Boltzmann`.  (`noct_sam` and
`ross` raise, if at all, because of their scalar parameters, so element 0 decides.) -/
def PvArr.getCellTemperature (sigma : Fl) (a : PvArr) (w : Weather) (model : String) : Except PyErr (ℕ → Fl) :=
  let t := a.temperature_model_parameters
  if model = "sapm" then
    (getNums t ["a", "b", "deltaT"]).bind fun
    | [ca, cb, dT] => (numKwargs ["irrad_ref"] t).bind fun kw =>
        .ok fun i => Temperature.sapmCell (w.poa_global i) (w.temp_air i) (w.wind_speed i) ca cb dT (kwOr kw "irrad_ref" 1000)
    | _ => .error .typeError
  else if model = "pvsyst" then
    (numKwargs ["module_efficiency", "alpha_absorption"] a.module_parameters).bind fun km =>
    (numKwargs ["u_c", "u_v"] t).bind fun kt =>
      .ok fun i => Temperature.pvsystCell (w.poa_global i) (w.temp_air i) (w.wind_speed i) (kwOr kt "u_c" 29) (kwOr kt "u_v" 0)
        (kwOr km "module_efficiency" 0.1) (kwOr km "alpha_absorption" 0.9)
  else if model = "faiman" then
    (numKwargs ["u0", "u1"] t).bind fun kw =>
      .ok fun i => Temperature.faiman (w.poa_global i) (w.temp_air i) (w.wind_speed i) (kwOr kw "u0" 25) (kwOr kw "u1" 6.84)
  else if model = "faiman_rad" then
    (numKwargs ["u0", "u1", "sky_view", "emissivity"] t).bind fun kw =>
      .ok fun i => Temperature.faimanRad sigma (w.poa_global i) (w.temp_air i) (w.wind_speed i)
        (w.longwave_down.map fun s => s i) (kwOr kw "u0" 25) (kwOr kw "u1" 6.84) (kwOr kw "sky_view" 1)
        (kwOr kw "emissivity" 0.88)
  else if model = "fuentes" then
    (getNum t "noct_installed").bind fun noct =>
    (numKwargs ["wind_height", "emissivity", "absorption", "surface_tilt", "module_width", "module_length"] t).bind fun kw =>
      .ok (Temperature.fuentes w.poa_global w.temp_air w.wind_speed w.hours noct (a.mount.height.getD 5)
        (kwOr kw "wind_height" 9.144) (kwOr kw "emissivity" 0.84) (kwOr kw "absorption" 0.83) (kwOr kw "surface_tilt" 30)
        (kwOr kw "module_width" 0.31579) (kwOr kw "module_length" 1.2))
  else if model = "noct_sam" then
    (getNums t ["noct", "module_efficiency"]).bind fun
    | [noct, eff] =>
      (numKwargs ["transmittance_absorptance", "array_height", "mount_standoff"] t).bind fun kw =>
        let f (i : ℕ) : Except PyErr Fl :=
          Temperature.noctSam (w.poa_global i) (w.temp_air i) (w.wind_speed i) noct eff
            (w.effective_irradiance.map fun s => s i) (kwOr kw "transmittance_absorptance" 0.9) (kwOr kw "array_height" 1)
            (kwOr kw "mount_standoff" 4)
        (f 0).bind fun _ => .ok fun i => (f i).toOption.getD nan
    | _ => .error .typeError
  else if model = "ross" then
    (numKwargs ["noct", "k"] t).bind fun kw =>
      let f (i : ℕ) : Except PyErr Fl := Temperature.ross (w.poa_global i) (w.temp_air i) (kw.get? "noct") (kw.get? "k")
      (f 0).bind fun _ => .ok fun i => (f i).toOption.getD nan
  else .error .valueError

/-- `elem in d`. (Used for pvlib/pvsystem.py:1327-1389.) -/
def hasKey (d : PyDict PVal) (key : String) : Bool := (d.get? key).isSome

/-- `Array.dc_ohms_from_percent`, pvlib/pvsystem.py:1327-1389. -/
def PvArr.dcOhms (a : PvArr) : Except PyErr Fl :=
  let d := a.module_parameters
  let finish (v i : String) : Except PyErr Fl :=
    (getNum d v).bind fun vmp => (getNum d i).bind fun imp => (getNum a.array_losses_parameters "dc_ohmic_percent").bind fun pct =>
      .ok (dcOhmsFromPercent vmp imp pct a.modules_per_string a.strings)
  if hasKey d "V_mp_ref" && hasKey d "I_mp_ref" then finish "V_mp_ref" "I_mp_ref"
  else if hasKey d "Vmpo" && hasKey d "Impo" then finish "Vmpo" "Impo"
  else if hasKey d "Vmpp" && hasKey d "Impp" then finish "Vmpp" "Impp"
  else .error .valueError

/-! ### `PVSystem` -/

/-- A parameter that may be given per Array: a tuple, or anything else. (Used for pvlib/pvsystem.py:254-272.) -/
inductive PerArray (α : Type) where
  | one (x : α)
  | tuple (xs : List α)

/-- What a method decorated with `_unwrap_single_value` returns. (Used for pvlib/pvsystem.py:64-66.) -/
inductive Result (α : Type) where
  | single (x : α)
  | tuple (xs : List α)

/-- The attributes of a `PVSystem` (the names are not modelled). (Used for pvlib/pvsystem.py:193-244.) -/
structure System where
  arrays : List PvArr
  inverter_parameters : PyDict PVal
  losses_parameters : PyDict PVal

/-- The `arrays` argument of `PVSystem`. (Used for pvlib/pvsystem.py:193-244.) -/
inductive ArraysArg where
  | none
  | one (a : PvArr)
  | many (as : List PvArr)

/-- The arguments that only matter for `arrays=None`, pvlib/pvsystem.py:195-202. -/
structure SingleArgs where
  surface_tilt : Fl := 0
  surface_azimuth : Fl := 180
  albedo : Option Fl := none
  surface_type : Option String := none
  module : Option String := none
  module_type : Option String := none
  module_parameters : Option (PyDict PVal) := none
  temperature_model_parameters : Option (PyDict PVal) := none
  modules_per_string : Fl := 1
  strings_per_inverter : Fl := 1
  racking_model : Option String := none

/-- `PVSystem.__init__`, pvlib/pvsystem.py:193-244. -/
def mkSystem (arrays : ArraysArg) (s : SingleArgs := {}) (inverter_parameters losses_parameters : Option (PyDict PVal) := none) :
    Except PyErr System :=
  let done (as : List PvArr) : Except PyErr System :=
    .ok ⟨as, inverter_parameters.getD [], losses_parameters.getD []⟩
  match arrays with
  | .none =>
    let array_losses := match losses_parameters with
      | none => []
      | some l => buildKwargs ["dc_ohmic_percent"] l
    done [mkArray (.fixed s.surface_tilt s.surface_azimuth s.racking_model none) s.albedo s.surface_type s.module s.module_type
      s.module_parameters s.temperature_model_parameters s.modules_per_string s.strings_per_inverter (some array_losses)]
  | .one a => done [a]
  | .many as => if as.length = 0 then .error .valueError else done as

/-- `_validate_per_array`, pvlib/pvsystem.py:254-272. -/
def validatePerArray {α : Type} (sys : System) (values : PerArray α) (system_wide : Bool := false) : Except PyErr (List α) :=
  match values with
  | .one x => if system_wide then .ok (List.replicate sys.arrays.length x)
    else if [x].length ≠ sys.arrays.length then .error .valueError else .ok [x]
  | .tuple xs => if xs.length ≠ sys.arrays.length then .error .valueError else .ok xs

/-- `tuple(<generator>)`: the elements in order, or the first exception. (Used for pvlib/pvsystem.py:50-67.) -/
def collect {β : Type} : List (Except PyErr β) → Except PyErr (List β)
  | [] => .ok []
  | .error e :: _ => .error e
  | .ok b :: rest => (collect rest).bind fun bs => .ok (b :: bs)

/-- The test of `_unwrap_single_value`, pvlib/pvsystem.py:64-66. -/
def unwrapValue {β : Type} (unwrap : Bool) (x : List β) : Result β :=
  match x with
  | [b] => if unwrap then .single b else .tuple [b]
  | x => .tuple x

/-- `_unwrap_single_value`, pvlib/pvsystem.py:50-67, around a method that builds its tuple from a generator. -/
def unwrapped {β : Type} (unwrap : Bool) (xs : List (Except PyErr β)) : Except PyErr (Result β) :=
  (collect xs).bind fun x => .ok (unwrapValue unwrap x)

/-- `PVSystem._infer_cell_type`, pvlib/pvsystem.py:274-285. -/
def System.inferCellType (sys : System) (unwrap : Bool := true) : Except PyErr (Result (Option String)) :=
  unwrapped unwrap (sys.arrays.map fun a => PvSystem.inferCellType a.module_parameters)

/-- `PVSystem.get_aoi`, pvlib/pvsystem.py:287-305. -/
def System.getAoi (sys : System) (solar_zenith solar_azimuth : Fl) (unwrap : Bool := true) : Except PyErr (Result Fl) :=
  unwrapped unwrap (sys.arrays.map fun a => .ok (a.getAoi solar_zenith solar_azimuth))

/-- `PVSystem.get_irradiance`, pvlib/pvsystem.py:307-380. -/
def System.getIrradiance (tb : Tables) (sys : System) (extra : Option Fl) (solar_zenith solar_azimuth : Fl)
    (dni ghi dhi : PerArray Fl) (dni_extra airmass : Option Fl) (albedo : PerArray (Option Fl))
    (model : String := "haydavies") (kw : IrrKwargs := {}) (unwrap : Bool := true) : Except PyErr (Result Irradiance.Poa) :=
  (validatePerArray sys dni true).bind fun dni => (validatePerArray sys ghi true).bind fun ghi =>
  (validatePerArray sys dhi true).bind fun dhi => (validatePerArray sys albedo true).bind fun albedo =>
  unwrapped unwrap ((sys.arrays.zip (dni.zip (ghi.zip (dhi.zip albedo)))).map fun p =>
    p.1.getIrradiance tb extra solar_zenith solar_azimuth p.2.1 p.2.2.1 p.2.2.2.1 dni_extra airmass p.2.2.2.2 model kw)

/-- `PVSystem.get_iam`, pvlib/pvsystem.py:382-412. -/
def System.getIam (mk : String → List Fl → List Fl → Except PyErr (Fl → Fl)) (sys : System) (aoi : PerArray Fl)
    (iam_model : String := "physical") (unwrap : Bool := true) : Except PyErr (Result Fl) :=
  (validatePerArray sys aoi).bind fun aoi =>
  unwrapped unwrap ((sys.arrays.zip aoi).map fun p => p.1.getIam mk p.2 iam_model)

/-- `PVSystem.get_cell_temperature`, pvlib/pvsystem.py:414-479. -/
def System.getCellTemperature (sigma : Fl) (sys : System) (hours : ℕ → ℝ) (poa_global temp_air wind_speed : PerArray (ℕ → Fl))
    (model : String) (effective_irradiance longwave_down : PerArray (Option (ℕ → Fl))) (unwrap : Bool := true) :
    Except PyErr (Result (ℕ → Fl)) :=
  (validatePerArray sys poa_global).bind fun poa => (validatePerArray sys temp_air true).bind fun ta =>
  (validatePerArray sys wind_speed true).bind fun ws => (validatePerArray sys effective_irradiance true).bind fun ei =>
  (validatePerArray sys longwave_down true).bind fun lw =>
  unwrapped unwrap ((sys.arrays.zip (poa.zip (ta.zip (ws.zip (ei.zip lw))))).map fun p =>
    p.1.getCellTemperature sigma ⟨p.2.1, p.2.2.1, p.2.2.2.1, p.2.2.2.2.1, p.2.2.2.2.2, hours⟩ model)

/-- The body of `calcparams_desoto` for one array, pvlib/pvsystem.py:503-517. -/
def desotoOf (a : PvArr) (effective_irradiance temp_cell : Fl) : Except PyErr Five :=
  (numKwargs ["a_ref", "I_L_ref", "I_o_ref", "R_sh_ref", "R_s", "alpha_sc", "EgRef", "dEgdT", "irrad_ref", "temp_ref"]
    a.module_parameters).bind fun kw => (kwReq kw ["alpha_sc", "a_ref", "I_L_ref", "I_o_ref", "R_sh_ref", "R_s"]).bind fun
    | [alpha_sc, a_ref, IL, Io, Rsh, Rs] => .ok (calcparamsDesoto effective_irradiance temp_cell alpha_sc a_ref IL Io Rsh Rs
        (kwOr kw "EgRef" (fin 1.121)) (kwOr kw "dEgdT" (fin (-0.0002677))) (kwOr kw "irrad_ref" 1000) (kwOr kw "temp_ref" 25))
    | _ => .error .typeError

/-- The body of `calcparams_cec` for one array, pvlib/pvsystem.py:541-555. -/
def cecOf (a : PvArr) (effective_irradiance temp_cell : Fl) : Except PyErr Five :=
  (numKwargs ["a_ref", "I_L_ref", "I_o_ref", "R_sh_ref", "R_s", "alpha_sc", "Adjust", "EgRef", "dEgdT", "irrad_ref", "temp_ref"]
    a.module_parameters).bind fun kw => (kwReq kw ["alpha_sc", "a_ref", "I_L_ref", "I_o_ref", "R_sh_ref", "R_s", "Adjust"]).bind fun
    | [alpha_sc, a_ref, IL, Io, Rsh, Rs, adj] => .ok (calcparamsCec effective_irradiance temp_cell alpha_sc a_ref IL Io Rsh Rs adj
        (kwOr kw "EgRef" (fin 1.121)) (kwOr kw "dEgdT" (fin (-0.0002677))) (kwOr kw "irrad_ref" 1000) (kwOr kw "temp_ref" 25))
    | _ => .error .typeError

/-- The body of `calcparams_pvsyst` for one array, pvlib/pvsystem.py:579-595. -/
def pvsystOf (a : PvArr) (effective_irradiance temp_cell : Fl) : Except PyErr Five :=
  (numKwargs ["gamma_ref", "mu_gamma", "I_L_ref", "I_o_ref", "R_sh_ref", "R_sh_0", "R_sh_exp", "R_s", "alpha_sc", "EgRef",
      "irrad_ref", "temp_ref", "cells_in_series"] a.module_parameters).bind fun kw =>
    (kwReq kw ["alpha_sc", "gamma_ref", "mu_gamma", "I_L_ref", "I_o_ref", "R_sh_ref", "R_sh_0", "R_s", "cells_in_series"]).bind fun
    | [alpha_sc, g, mu, IL, Io, Rsh, Rsh0, Rs, cis] => .ok (calcparamsPvsyst effective_irradiance temp_cell alpha_sc g mu IL Io Rsh
        Rsh0 Rs cis (kwOr kw "R_sh_exp" (fin 5.5)) (kwOr kw "EgRef" (fin 1.121)) (kwOr kw "irrad_ref" 1000) (kwOr kw "temp_ref" 25))
    | _ => .error .typeError

/-- Optional entries of a Sandia module (a present entry that is not a number raises TypeError when used). (Used for pvlib/pvsystem.py:2361-2402.) -/
def optNum (d : PyDict PVal) (key : String) : Option Fl :=
  match d.get? key with
  | some (.num x) => some x
  | _ => none

/-- `sapm(effective_irradiance, temp_cell, module)` on a dict, in the order of the look-ups, pvlib/pvsystem.py:2361-2402. -/
def sapmOf (a : PvArr) (effective_irradiance temp_cell : Fl) : Except PyErr SapmOut :=
  (getNums a.module_parameters ["Bvmpo", "Mbvmp", "Bvoco", "Mbvoc", "N", "Cells_in_Series", "Isco", "Aisc", "Impo", "C0", "C1",
      "Aimp", "Voco", "Vmpo", "C2", "C3"]).bind fun
    | [Bvmpo, Mbvmp, Bvoco, Mbvoc, N, Cells_in_Series, Isco, Aisc, Impo, C0, C1, Aimp, Voco, Vmpo, C2, C3] =>
      let g := optNum a.module_parameters
      .ok (sapm effective_irradiance temp_cell ⟨Isco, Impo, Voco, Vmpo, Aisc, Aimp, C0, C1, C2, C3, Bvmpo, Mbvmp, Bvoco, Mbvoc, N,
        Cells_in_Series, g "IXO", g "C4", g "C5", g "IXXO", g "C6", g "C7"⟩)
    | _ => .error .typeError

/-- `sapm_spectral_loss` for one array, pvlib/pvsystem.py:641-645. -/
def sapmSpectralOf (a : PvArr) (airmass_absolute : Fl) : Except PyErr Fl :=
  (getNums a.module_parameters ["A4", "A3", "A2", "A1", "A0"]).bind fun
    | [A4, A3, A2, A1, A0] => .ok (Spectrum.sapmFactor airmass_absolute A0 A1 A2 A3 A4)
    | _ => .error .typeError

/-- `sapm_effective_irradiance` for one array, pvlib/pvsystem.py:678-684. -/
def sapmEffOf (a : PvArr) (airmass_absolute poa_direct poa_diffuse aoi : Fl) : Except PyErr Fl :=
  (getNums a.module_parameters ["A4", "A3", "A2", "A1", "A0", "B5", "B4", "B3", "B2", "B1", "B0", "FD"]).bind fun
    | [A4, A3, A2, A1, A0, B5, B4, B3, B2, B1, B0, FD] =>
      .ok (sapmEffectiveIrradiance poa_direct poa_diffuse airmass_absolute aoi A0 A1 A2 A3 A4 B0 B1 B2 B3 B4 B5 FD)
    | _ => .error .typeError

/-- `_spectral_correction`, pvlib/pvsystem.py:718-732. -/
def firstSolarOf (a : PvArr) (airmass_absolute pw : Fl) : Except PyErr Fl :=
  match a.module_parameters.get? "first_solar_spectral_coefficients" with
  | some (.nums c) => Spectrum.firstsolar pw airmass_absolute none (some c)
  | some _ => .error .typeError
  | none => (inferCellType a.module_parameters).bind fun m => Spectrum.firstsolar pw airmass_absolute m none

/-- `pvwatts_dc` for one array, pvlib/pvsystem.py:868-876 (`cap_adjustment` is used as a truth value). -/
def pvwattsDcOf (a : PvArr) (effective_irradiance temp_cell : Fl) : Except PyErr Fl :=
  (getNums a.module_parameters ["pdc0", "gamma_pdc"]).bind fun
    | [pdc0, gamma] => (numKwargs ["temp_ref", "k", "cap_adjustment"] a.module_parameters).bind fun kw =>
      .ok (pvwattsDc effective_irradiance temp_cell pdc0 gamma (kwOr kw "temp_ref" 25) (kw.get? "k")
        (decide (¬ eqv (kwOr kw "cap_adjustment" 0) 0)))
    | _ => .error .typeError

/-- The pattern of the methods that take an irradiance and a cell temperature per array: `calcparams_desoto` (481-517),
`calcparams_cec` (519-555), `calcparams_pvsyst` (557-595), `sapm` (597-623), `pvwatts_dc` (854-876), with the body `f`. (Used for pvlib/pvsystem.py:481-517.) -/
def System.perTwo {β : Type} (sys : System) (f : PvArr → Fl → Fl → Except PyErr β) (effective_irradiance temp_cell : PerArray Fl)
    (unwrap : Bool := true) : Except PyErr (Result β) :=
  (validatePerArray sys effective_irradiance).bind fun ei => (validatePerArray sys temp_cell).bind fun tc =>
  unwrapped unwrap ((sys.arrays.zip (ei.zip tc)).map fun p => f p.1 p.2.1 p.2.2)

/-- `PVSystem.calcparams_desoto`, pvlib/pvsystem.py:481-517. -/
def System.calcparamsDesoto (sys : System) (effective_irradiance temp_cell : PerArray Fl) (unwrap : Bool := true) :
    Except PyErr (Result Five) := sys.perTwo desotoOf effective_irradiance temp_cell unwrap
/-- `PVSystem.calcparams_cec`, pvlib/pvsystem.py:519-555. -/
def System.calcparamsCec (sys : System) (effective_irradiance temp_cell : PerArray Fl) (unwrap : Bool := true) :
    Except PyErr (Result Five) := sys.perTwo cecOf effective_irradiance temp_cell unwrap
/-- `PVSystem.calcparams_pvsyst`, pvlib/pvsystem.py:557-595. -/
def System.calcparamsPvsyst (sys : System) (effective_irradiance temp_cell : PerArray Fl) (unwrap : Bool := true) :
    Except PyErr (Result Five) := sys.perTwo pvsystOf effective_irradiance temp_cell unwrap
/-- `PVSystem.sapm`, pvlib/pvsystem.py:597-623. -/
def System.sapm (sys : System) (effective_irradiance temp_cell : PerArray Fl) (unwrap : Bool := true) :
    Except PyErr (Result SapmOut) := sys.perTwo sapmOf effective_irradiance temp_cell unwrap
/-- `PVSystem.pvwatts_dc`, pvlib/pvsystem.py:854-876. -/
def System.pvwattsDc (sys : System) (effective_irradiance temp_cell : PerArray Fl) (unwrap : Bool := true) :
    Except PyErr (Result Fl) := sys.perTwo pvwattsDcOf effective_irradiance temp_cell unwrap

/-- `PVSystem.sapm_spectral_loss`, pvlib/pvsystem.py:625-645. -/
def System.sapmSpectralLoss (sys : System) (airmass_absolute : Fl) (unwrap : Bool := true) : Except PyErr (Result Fl) :=
  unwrapped unwrap (sys.arrays.map fun a => sapmSpectralOf a airmass_absolute)

/-- `PVSystem.sapm_effective_irradiance`, pvlib/pvsystem.py:647-684. -/
def System.sapmEffectiveIrradiance (sys : System) (poa_direct poa_diffuse : PerArray Fl) (airmass_absolute : Fl)
    (aoi : PerArray Fl) (unwrap : Bool := true) : Except PyErr (Result Fl) :=
  (validatePerArray sys poa_direct).bind fun pd => (validatePerArray sys poa_diffuse).bind fun pf =>
  (validatePerArray sys aoi).bind fun aoi =>
  unwrapped unwrap ((sys.arrays.zip (pd.zip (pf.zip aoi))).map fun p => sapmEffOf p.1 airmass_absolute p.2.1 p.2.2.1 p.2.2.2)

/-- `PVSystem.first_solar_spectral_loss`, pvlib/pvsystem.py:686-735. -/
def System.firstSolarSpectralLoss (sys : System) (pw : PerArray Fl) (airmass_absolute : Fl) (unwrap : Bool := true) :
    Except PyErr (Result Fl) :=
  (validatePerArray sys pw true).bind fun pw =>
  unwrapped unwrap ((sys.arrays.zip pw).map fun p => firstSolarOf p.1 airmass_absolute p.2)

/-- `PVSystem.scale_voltage_current_power`, pvlib/pvsystem.py:829-852. -/
def System.scale (sys : System) (data : PerArray Frame) (unwrap : Bool := true) : Except PyErr (Result Frame) :=
  (validatePerArray sys data).bind fun data =>
  unwrapped unwrap ((sys.arrays.zip data).map fun p =>
    scaleVoltageCurrentPower p.2 p.1.modules_per_string p.1.strings)

/-- `PVSystem.dc_ohms_from_percent`, pvlib/pvsystem.py:892-901. -/
def System.dcOhms (sys : System) (unwrap : Bool := true) : Except PyErr (Result Fl) :=
  unwrapped unwrap (sys.arrays.map PvArr.dcOhms)

/-- The keywords of `pvwatts_losses`, in the order of its signature, pvlib/pvsystem.py:3035-3037. -/
def lossKeys : List String :=
  ["soiling", "shading", "snow", "mismatch", "wiring", "connections", "lid", "nameplate_rating", "age", "availability"]

/-- `PVSystem.pvwatts_losses`, pvlib/pvsystem.py:878-890. -/
def System.pvwattsLosses (sys : System) : Except PyErr Fl :=
  (numKwargs lossKeys sys.losses_parameters).bind fun kw =>
    .ok (PvFunctions.pvwattsLosses ((lossKeys.zip pvwattsDefaults).map fun p => kwOr kw p.1 p.2))

/-- `PVSystem.singlediode`, pvlib/pvsystem.py:737-744. -/
def System.singlediode (_sys : System) (n : Numerics) (f : Five) : Except PyErr SevenPoints := PvFunctions.singlediode n f

/-- `PVSystem.i_from_v`, pvlib/pvsystem.py:746-756. -/
def System.iFromV (_sys : System) (n : Numerics) (voltage : Fl) (f : Five) : Except PyErr Fl := PvFunctions.iFromV n voltage f

/-- The Sandia inverter parameters from the dict, in the order they are read by `sandia` (pvlib/inverter.py:127-129, 22-29). -/
def sandiaParams (d : PyDict PVal) : Except PyErr Inverter.SandiaParams :=
  (getNums d ["Paco", "Pnt", "Pso", "Pdco", "Vdco", "C0", "C1", "C2", "C3"]).bind fun
    | [Paco, Pnt, Pso, Pdco, Vdco, C0, C1, C2, C3] => .ok ⟨Paco, Pdco, Vdco, Pso, C0, C1, C2, C3, Pnt⟩
    | _ => .error .typeError

/-- The ADR inverter parameters from the dict (pvlib/inverter.py:285-294; the order in which missing keys are reported is not
modelled: the coefficients last). -/
def adrParams (d : PyDict PVal) : Except PyErr Inverter.AdrParams :=
  (getNums d ["Pnom", "Vnom", "Pacmax", "Pnt", "Vmax", "Vmin", "Vdcmax", "MPPTHi", "MPPTLow"]).bind fun
    | [Pnom, Vnom, Pacmax, Pnt, Vmax, Vmin, Vdcmax, MPPTHi, MPPTLow] => (argOf d "ADRCoefficients").bind fun
      | .nums c => .ok ⟨Pnom, Vnom, Pacmax, Pnt, c, Vmax, Vmin, Vdcmax, MPPTHi, MPPTLow⟩
      | _ => .error .typeError
    | _ => .error .typeError

/-- `PVSystem.get_ac`, pvlib/pvsystem.py:758-827.  `v_dc = none` is Python's `None`: a single non-tuple value that no inverter
model can compute with (TypeError). -/
def System.getAc (sys : System) (model : String) (p_dc : PerArray Fl) (v_dc : Option (PerArray Fl) := none) : Except PyErr Fl :=
  let model := pyLower model
  let multiple_arrays := 1 < sys.arrays.length
  let volts : Except PyErr (List Fl) := match v_dc with
    | some v => validatePerArray sys v
    | none => (validatePerArray sys (.one ())).bind fun _ => .error .typeError
  if model = "sandia" then
    (validatePerArray sys p_dc).bind fun p => volts.bind fun v => (sandiaParams sys.inverter_parameters).bind fun q =>
    if multiple_arrays then Inverter.sandiaMulti v p q
    else match v, p with
      | v0 :: _, p0 :: _ => .ok (Inverter.sandia v0 p0 q)
      | _, _ => .error .indexError
  else if model = "pvwatts" then
    (numKwargs ["eta_inv_nom", "eta_inv_ref"] sys.inverter_parameters).bind fun kw =>
    (validatePerArray sys p_dc).bind fun p => (getNum sys.inverter_parameters "pdc0").bind fun pdc0 =>
    if multiple_arrays then
      .ok (Inverter.pvwattsMulti p pdc0 (kwOr kw "eta_inv_nom" 0.96) (kwOr kw "eta_inv_ref" 0.9637))
    else match p with
      | p0 :: _ => .ok (Inverter.pvwatts p0 pdc0 (kwOr kw "eta_inv_nom" 0.96) (kwOr kw "eta_inv_ref" 0.9637))
      | _ => .error .indexError
  else if model = "adr" then
    if multiple_arrays then .error .valueError
    else (validatePerArray sys p_dc).bind fun p => volts.bind fun v => (adrParams sys.inverter_parameters).bind fun q =>
      match v, p with
      | v0 :: _, p0 :: _ => .ok (Inverter.adr v0 p0 q)
      | _, _ => .error .indexError
  else .error .valueError

end Pvlib.PvSystem
