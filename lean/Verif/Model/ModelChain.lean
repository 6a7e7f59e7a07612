import Verif.Model.PvSystem
import Verif.Model.Location
import Verif.Model.Decomposition

/-! # Model of `pvlib/modelchain.py`

Time series are functions of the row number; a DataFrame is its index (times in hours) and its named columns.  A scalar that
pandas broadcasts (`aoi_modifier = 1.0`) is a constant series.  The functions of `PVSystem`, modelled per element in
`Verif/Model/PvSystem.lean`, are applied to whole series by `gather`: they raise, if at all, because of their scalar parameters,
so the first element decides.

Custom functions given as models (`partial(model, self)`), `__repr__`, the warnings of `complete_irradiance` and the tracking
method `_prep_inputs_tracking` (called nowhere) are not modelled.  `results` after an exception is not modelled: the theorems
about later runs hold for every previous content of `results`. -/

noncomputable section
open scoped Classical
namespace Pvlib.ModelChain
open Fl Pvlib.Tools Pvlib.PvFunctions Pvlib.PvSystem

/-! ### Choosing the models -/

/-- Used for pvlib/modelchain.py:604-613. -/
inductive DcModel | sapm | desoto | cec | pvsyst | pvwatts
  deriving DecidableEq
/-- Used for pvlib/modelchain.py:732-749. -/
inductive AcModel | sandia | adr | pvwatts
  deriving DecidableEq
/-- Used for pvlib/modelchain.py:801-826. -/
inductive AoiModel | ashrae | physical | sapm | martin_ruiz | schlick | interp | no_loss
  deriving DecidableEq
/-- Used for pvlib/modelchain.py:879-895. -/
inductive SpectralModel | first_solar | sapm | no_loss
  deriving DecidableEq
/-- Used for pvlib/modelchain.py:955-979. -/
inductive TempModel | sapm | pvsyst | faiman | fuentes | noct_sam
  deriving DecidableEq
/-- Used for pvlib/modelchain.py:1027-1038. -/
inductive OhmicModel | dc_ohms_from_percent | no_loss
  deriving DecidableEq
/-- Used for pvlib/modelchain.py:1071-1087. -/
inductive LossModel | pvwatts | no_loss
  deriving DecidableEq

/-- `keys <= _common_keys(dicts)`, pvlib/modelchain.py:2049-2056, for the dict `sel` of every array. -/
def common (sys : System) (sel : PvArr → PyDict PVal) (keys : List String) : Bool :=
  sys.arrays.all fun a => keys.all fun k => hasKey (sel a) k

/-- `_DC_MODEL_PARAMS`, pvlib/pvsystem.py:27-47. -/
def dcParams (model : String) : Option (List String) :=
  if model = "sapm" then some ["C0", "C1", "C2", "C3", "Isco", "Impo", "Voco", "Vmpo", "Aisc", "Aimp", "Bvoco", "Mbvoc", "Bvmpo",
    "Mbvmp", "N", "Cells_in_Series"]
  else if model = "desoto" then some ["alpha_sc", "a_ref", "I_L_ref", "I_o_ref", "R_sh_ref", "R_s"]
  else if model = "cec" then some ["alpha_sc", "a_ref", "I_L_ref", "I_o_ref", "R_sh_ref", "R_s", "Adjust"]
  else if model = "pvsyst" then some ["gamma_ref", "mu_gamma", "I_L_ref", "I_o_ref", "R_sh_ref", "R_sh_0", "R_s", "alpha_sc",
    "EgRef", "cells_in_series"]
  else if model = "singlediode" then some ["alpha_sc", "a_ref", "I_L_ref", "I_o_ref", "R_sh_ref", "R_s"]
  else if model = "pvwatts" then some ["pdc0", "gamma_pdc"]
  else none

/-- The method named by a string in the setter of `dc_model`, pvlib/modelchain.py:604-613: `'singlediode'` names none. -/
def dcMethod (model : String) : Option DcModel :=
  if model = "sapm" then some .sapm
  else if model = "desoto" then some .desoto
  else if model = "cec" then some .cec
  else if model = "pvsyst" then some .pvsyst
  else if model = "pvwatts" then some .pvwatts
  else none

/-- `infer_dc_model`, pvlib/modelchain.py:619-640: (method, name). -/
def inferDc (sys : System) : Except PyErr (DcModel × String) :=
  let params := common sys PvArr.module_parameters
  if params ["A0", "A1", "C3"] then .ok (.sapm, "sapm")
  else if params ["a_ref", "I_L_ref", "I_o_ref", "R_sh_ref", "R_s", "Adjust"] then .ok (.cec, "cec")
  else if params ["a_ref", "I_L_ref", "I_o_ref", "R_sh_ref", "R_s"] then .ok (.desoto, "desoto")
  else if params ["gamma_ref", "mu_gamma", "I_L_ref", "I_o_ref", "R_sh_ref", "R_sh_0", "R_sh_exp", "R_s"] then
    .ok (.pvsyst, "pvsyst")
  else if params ["pdc0", "gamma_pdc"] then .ok (.pvwatts, "pvwatts")
  else .error .valueError

/-- An assignment to a property: the attribute afterwards (`none`: never set), and the exception raised, if any.  Where the code
stores before it checks, the attribute changes although the assignment raises. (Used for pvlib/modelchain.py:591-615.) -/
structure Assigned (α : Type) where
  attr : Option α
  raised : Option PyErr

/-- The setter of `dc_model` for a string, pvlib/modelchain.py:591-615. -/
def assignDcName (sys : System) (cur : Option DcModel) (model : String) : Assigned DcModel :=
  let model := pyLower model
  match dcParams model with
  | none => ⟨cur, some .valueError⟩
  | some keys =>
    if common sys PvArr.module_parameters keys then ⟨(dcMethod model).orElse fun _ => cur, none⟩
    else ⟨cur, some .valueError⟩

/-- The setter of `dc_model`, pvlib/modelchain.py:584-617. -/
def assignDc (sys : System) (cur : Option DcModel) (model : Option String) : Assigned DcModel :=
  match model with
  | none => match inferDc sys with
    | .error e => ⟨cur, some e⟩
    | .ok (m, name) => assignDcName sys (some m) name
  | some name => assignDcName sys cur name

/-- `infer_ac_model`, pvlib/modelchain.py:732-749, 2013-2028. -/
def inferAc (sys : System) : Except PyErr AcModel :=
  let d := sys.inverter_parameters
  if hasKey d "C0" && hasKey d "C1" && hasKey d "C2" then .ok .sandia
  else if hasKey d "ADRCoefficients" then if 1 < sys.arrays.length then .error .valueError else .ok .adr
  else if hasKey d "pdc0" then .ok .pvwatts
  else .error .valueError

/-- The setter of `ac_model`, pvlib/modelchain.py:715-730 (`model in 'adr'` is a substring test). -/
def chooseAc (sys : System) (model : Option String) : Except PyErr AcModel :=
  match model with
  | none => inferAc sys
  | some name =>
    let name := pyLower name
    if name = "sandia" then .ok .sandia
    else if hasSub name "adr" then .ok .adr
    else if name = "pvwatts" then .ok .pvwatts
    else .error .valueError

/-- `infer_aoi_model`, pvlib/modelchain.py:801-826, with `iam._IAM_MODEL_PARAMS`, pvlib/iam.py:21-27. -/
def inferAoi (sys : System) : Except PyErr AoiModel :=
  let params := common sys PvArr.module_parameters
  if params ["n", "K", "L"] then .ok .physical
  else if params ["B0", "B1", "B2", "B3", "B4", "B5"] then .ok .sapm
  else if params ["b"] then .ok .ashrae
  else if params ["a_r"] then .ok .martin_ruiz
  else if params ["theta_ref", "iam_ref"] then .ok .interp
  else .error .valueError

/-- The setter of `aoi_model`, pvlib/modelchain.py:776-799. -/
def chooseAoi (sys : System) (model : Option String) : Except PyErr AoiModel :=
  match model with
  | none => inferAoi sys
  | some name =>
    let name := pyLower name
    if name = "ashrae" then .ok .ashrae
    else if name = "physical" then .ok .physical
    else if name = "sapm" then .ok .sapm
    else if name = "martin_ruiz" then .ok .martin_ruiz
    else if name = "schlick" then .ok .schlick
    else if name = "interp" then .ok .interp
    else if name = "no_loss" then .ok .no_loss
    else .error .valueError

/-- The setter of `spectral_model`, pvlib/modelchain.py:879-895. -/
def chooseSpectral (model : Option String) : Except PyErr SpectralModel :=
  match model with
  | none => .ok .no_loss
  | some name =>
    let name := pyLower name
    if name = "first_solar" then .ok .first_solar
    else if name = "sapm" then .ok .sapm
    else if name = "no_loss" then .ok .no_loss
    else .error .valueError

/-- `infer_temperature_model`, pvlib/modelchain.py:955-979. -/
def inferTemp (sys : System) : Except PyErr TempModel :=
  let params := common sys PvArr.temperature_model_parameters
  if params ["a", "b", "deltaT"] then .ok .sapm
  else if params ["u_c", "u_v"] then .ok .pvsyst
  else if params ["u0", "u1"] then .ok .faiman
  else if params ["noct_installed"] then .ok .fuentes
  else if params ["noct", "module_efficiency"] then .ok .noct_sam
  else .error .valueError

/-- The method named by a string in the setter of `temperature_model`, pvlib/modelchain.py:927-936. -/
def tempMethod (model : String) : Option TempModel :=
  if model = "sapm" then some .sapm
  else if model = "pvsyst" then some .pvsyst
  else if model = "faiman" then some .faiman
  else if model = "fuentes" then some .fuentes
  else if model = "noct_sam" then some .noct_sam
  else none

/-- The setter of `temperature_model`, pvlib/modelchain.py:921-953: a named model is stored before the consistency check. -/
def assignTemp (sys : System) (cur : Option TempModel) (model : Option String) : Assigned TempModel :=
  match model with
  | none => match inferTemp sys with
    | .error e => ⟨cur, some e⟩
    | .ok m => ⟨some m, none⟩
  | some name => match tempMethod (pyLower name) with
    | none => ⟨cur, some .valueError⟩
    | some m => match inferTemp sys with
      | .error e => ⟨some m, some e⟩
      | .ok m' => if m = m' then ⟨some m, none⟩ else ⟨some m, some .valueError⟩

/-- The setter of `dc_ohmic_model`, pvlib/modelchain.py:1027-1038 (`partial(None, self)` raises TypeError). -/
def chooseOhmic (model : Option String) : Except PyErr OhmicModel :=
  match model with
  | none => .error .typeError
  | some name =>
    let name := pyLower name
    if name = "dc_ohms_from_percent" then .ok .dc_ohms_from_percent
    else if name = "no_loss" then .ok .no_loss
    else .error .valueError

/-- The setter of `losses_model`, pvlib/modelchain.py:1071-1087. -/
def chooseLosses (model : Option String) : Except PyErr LossModel :=
  match model with
  | none => .error .notImplementedError
  | some name =>
    let name := pyLower name
    if name = "pvwatts" then .ok .pvwatts
    else if name = "no_loss" then .ok .no_loss
    else .error .valueError

/-- The keyword arguments of `ModelChain.__init__` with their defaults, pvlib/modelchain.py:370-378. -/
structure Config where
  clearsky_model : String := "ineichen"
  transposition_model : String := "haydavies"
  solar_position_method : String := "nrel_numpy"
  airmass_model : String := "kastenyoung1989"
  dc_model : Option String := none
  ac_model : Option String := none
  aoi_model : Option String := none
  spectral_model : Option String := none
  temperature_model : Option String := none
  dc_ohmic_model : Option String := some "no_loss"
  losses_model : Option String := some "no_loss"

/-- The attributes of a `ModelChain`, apart from `location` and `results`. (Used for pvlib/modelchain.py:370-399.) -/
structure Chain where
  system : System
  clearsky_model : String
  transposition_model : String
  solar_position_method : String
  airmass_model : String
  dc : Option DcModel
  ac : AcModel
  aoi : AoiModel
  spectral : SpectralModel
  temp : TempModel
  ohmic : OhmicModel
  losses : LossModel

/-- The value of a property after an assignment in `__init__`, or the exception (`none`/`none` does not occur for `temp`). (Used for pvlib/modelchain.py:370-399.) -/
def Assigned.result {α : Type} (a : Assigned α) : Except PyErr (Option α) :=
  match a.raised with
  | some e => .error e
  | none => .ok a.attr

/-- `ModelChain.__init__`, pvlib/modelchain.py:370-399. -/
def mkChain (sys : System) (c : Config) : Except PyErr Chain :=
  (assignDc sys none c.dc_model).result.bind fun dc => (chooseAc sys c.ac_model).bind fun ac =>
  (chooseAoi sys c.aoi_model).bind fun aoi => (chooseSpectral c.spectral_model).bind fun spectral =>
  (assignTemp sys none c.temperature_model).result.bind fun temp => (chooseOhmic c.dc_ohmic_model).bind fun ohmic =>
  (chooseLosses c.losses_model).bind fun losses => match temp with
    | none => .error .attributeError
    | some temp => .ok ⟨sys, c.clearsky_model, c.transposition_model, c.solar_position_method, c.airmass_model, dc, ac, aoi,
        spectral, temp, ohmic, losses⟩

/-- The keyword arguments a caller of `with_pvwatts` or `with_sapm` gives (`none`: not given). (Used for pvlib/modelchain.py:402-488.) -/
structure Kwargs where
  clearsky_model : Option String := none
  transposition_model : Option String := none
  solar_position_method : Option String := none
  airmass_model : Option String := none
  dc_model : Option (Option String) := none
  ac_model : Option (Option String) := none
  aoi_model : Option (Option String) := none
  spectral_model : Option (Option String) := none
  temperature_model : Option (Option String) := none
  dc_ohmic_model : Option (Option String) := none
  losses_model : Option (Option String) := none

/-- `config.update(kwargs)` followed by the call with the defaults of the caller's signature. (Used for pvlib/modelchain.py:402-488.) -/
def Kwargs.over (kw : Kwargs) (c : Config) : Config where
  clearsky_model := kw.clearsky_model.getD c.clearsky_model
  transposition_model := kw.transposition_model.getD c.transposition_model
  solar_position_method := kw.solar_position_method.getD c.solar_position_method
  airmass_model := kw.airmass_model.getD c.airmass_model
  dc_model := kw.dc_model.getD c.dc_model
  ac_model := kw.ac_model.getD c.ac_model
  aoi_model := kw.aoi_model.getD c.aoi_model
  spectral_model := kw.spectral_model.getD c.spectral_model
  temperature_model := kw.temperature_model.getD c.temperature_model
  dc_ohmic_model := kw.dc_ohmic_model.getD c.dc_ohmic_model
  losses_model := kw.losses_model.getD c.losses_model

/-- `PVWATTS_CONFIG`, pvlib/modelchain.py:52-56. -/
def pvwattsConfig : Config :=
  { dc_model := some "pvwatts", ac_model := some "pvwatts", losses_model := some "pvwatts", transposition_model := "perez",
    aoi_model := some "physical", spectral_model := some "no_loss", temperature_model := some "sapm" }

/-- `SAPM_CONFIG`, pvlib/modelchain.py:58-61. -/
def sapmConfig : Config :=
  { dc_model := some "sapm", ac_model := some "sandia", losses_model := some "no_loss", aoi_model := some "sapm",
    spectral_model := some "sapm", temperature_model := some "sapm" }

/-- `ModelChain.with_pvwatts`, pvlib/modelchain.py:402-488. -/
def withPvwatts (sys : System) (kw : Kwargs) : Except PyErr Chain := mkChain sys (kw.over pvwattsConfig)
/-- `ModelChain.with_sapm`, pvlib/modelchain.py:491-568. -/
def withSapm (sys : System) (kw : Kwargs) : Except PyErr Chain := mkChain sys (kw.over sapmConfig)

/-- `get_orientation`, pvlib/modelchain.py:71-98: (surface_tilt, surface_azimuth). -/
def getOrientation (strategy : String) (kwargs : PyDict Fl) : Except PyErr (Fl × Fl) :=
  if strategy = "south_at_latitude_tilt" then (argOf kwargs "latitude").bind fun lat => .ok (lat, 180)
  else if strategy = "flat" then .ok (0, 180)
  else .error .valueError

/-! ### Data -/

/-- A column or a Series. (Used for pvlib/modelchain.py:2059-2068.) -/
abbrev Ser := ℕ → Fl

/-- A DataFrame: index (hours) and columns. (Used for pvlib/modelchain.py:2059-2068.) -/
structure DF where
  index : List ℝ
  cols : PyDict Ser

/-- `df[name]`. (Used for pvlib/modelchain.py:2059-2068.) -/
def DF.col (df : DF) (name : String) : Except PyErr Ser := argOf df.cols name

/-- `name in df`. (Used for pvlib/modelchain.py:1289-1312.) -/
def DF.has (df : DF) (name : String) : Bool := (df.cols.get? name).isSome

/-- A function on elements applied to whole series: the series of the values, or the exception of the first element that
raises.  (The functions used raise because of their parameters, for all elements alike.) (Used for pvlib/modelchain.py:1255-1262.) -/
def gather {α : Type} (f : ℕ → Except PyErr α) : Except PyErr (ℕ → α) :=
  if h : ∃ g : ℕ → α, ∀ i, f i = .ok (g i) then .ok (Classical.choose h)
  else if h : ∃ i e, f i = .error e then .error (Classical.choose (Nat.find_spec h))
  else .error .runtimeError

/-- Used for pvlib/modelchain.py:2059-2068. -/
def PerArray.map {α β : Type} (f : α → β) : PerArray α → PerArray β
  | .one x => .one (f x)
  | .tuple xs => .tuple (xs.map f)

/-- Used for pvlib/modelchain.py:1280-1287. -/
def PerArray.ofResult {α : Type} : Result α → PerArray α
  | .single x => .one x
  | .tuple xs => .tuple xs

/-- `_tuple_from_dfs`, pvlib/modelchain.py:2059-2068. -/
def tupleFromDfs (dfs : PerArray DF) (name : String) : Except PyErr (PerArray Ser) :=
  match dfs with
  | .one df => (df.col name).bind fun s => .ok (.one s)
  | .tuple dfs => (collect (dfs.map fun df => df.col name)).bind fun ss => .ok (.tuple ss)

/-- What a user passes as `weather` or `data`: a DataFrame, or a tuple or a list of them. (Used for pvlib/modelchain.py:2071-2074.) -/
inductive Input where
  | frame (df : DF)
  | tuple (dfs : List DF)
  | list (dfs : List DF)

/-- `_to_tuple`, pvlib/modelchain.py:2071-2074. -/
def toTuple : Input → PerArray DF
  | .frame df => .one df
  | .tuple dfs => .tuple dfs
  | .list dfs => .tuple dfs

/-- The DC results of one array: a Series of power, or a DataFrame. (Used for pvlib/modelchain.py:135-242.) -/
inductive Dc where
  | series (p : Ser)
  | frame (cols : PyDict Ser)

/-- The columns of the solar position that are read. (Used for pvlib/modelchain.py:135-242.) -/
structure SolPos where
  (apparent_zenith zenith azimuth : Ser)

/-- The columns of the air mass frame. (Used for pvlib/modelchain.py:135-242.) -/
structure AirMass where
  (relative absolute : Ser)

/-- `ModelChainResult`, pvlib/modelchain.py:135-242 (`tracking` is never set). -/
structure Results where
  singleton : Bool
  solar_position : Option SolPos
  airmass : Option AirMass
  ac : Option Ser
  losses : Option Fl
  total_irrad : Option (PerArray DF)
  aoi : Option (PerArray Ser)
  aoi_modifier : Option (PerArray Ser)
  spectral_modifier : Option (PerArray Ser)
  cell_temperature : Option (PerArray Ser)
  effective_irradiance : Option (PerArray Ser)
  dc : Option (PerArray Dc)
  diode_params : Option (PerArray (ℕ → Five))
  dc_ohmic_losses : Option (PerArray Ser)
  weather : Option (PerArray DF)
  times : Option (List ℝ)
  albedo : Option (PerArray Ser)

/-- `ModelChainResult()`, pvlib/modelchain.py:135-242. -/
def Results.fresh : Results :=
  ⟨false, none, none, none, none, none, none, none, none, none, none, none, none, none, none, none, none⟩

/-- `_result_type` and `__setattr__`, pvlib/modelchain.py:244-252, 254-257, for a value that is not None. -/
def wrapIf {α : Type} (singleton : Bool) : PerArray α → PerArray α
  | .tuple xs => .tuple xs
  | .one x => if singleton then .tuple [x] else .one x

/-- Reading a result that has not been computed: None cannot be used. (Used for pvlib/modelchain.py:1226-1242.) -/
def need {α : Type} : Option α → Except PyErr α
  | some x => .ok x
  | none => .error .typeError

/-- What the chain calls and this model does not define: solar position, extraterrestrial and clear-sky irradiance at the
location, tabulated coefficients, interpolators, and the numerics of the single diode model. (Used for pvlib/modelchain.py:1226-1242.) -/
structure Site where
  altitude : Fl
  solarPosition : List ℝ → String → Option Ser → Option Ser → Except PyErr SolPos
  extra : List ℝ → Ser
  clearskyDni : List ℝ → String → SolPos → Except PyErr Ser
  tb : Tables
  interpolator : String → List Fl → List Fl → Except PyErr (Fl → Fl)
  sigma : Fl
  numerics : Numerics

/-! ### Checks on the input -/

/-- `_all_same_index`, pvlib/modelchain.py:2039-2046. -/
def allSameIndex (dfs : List DF) : Bool :=
  match dfs with
  | [] => true
  | d :: rest => rest.all fun e => decide (e.index = d.index)

/-- `_check_multiple_input`, pvlib/modelchain.py:1445-1469. -/
def checkMultipleInput (sys : System) (data : PerArray DF) (strict : Bool := true) : Except PyErr Unit :=
  match data with
  | .one _ => if !strict || sys.arrays.length = 1 then .ok () else .error .typeError
  | .tuple dfs =>
    if dfs.length ≠ sys.arrays.length then .error .valueError
    else if allSameIndex dfs then .ok () else .error .valueError

/-- `_verify_df`, pvlib/modelchain.py:1289-1312. -/
def verifyDf (data : PerArray DF) (required : List String) : Except PyErr Unit :=
  let ok (df : DF) : Bool := required.all df.has
  match data with
  | .one df => if ok df then .ok () else .error .valueError
  | .tuple dfs => if dfs.all ok then .ok () else .error .valueError

/-! ### Preparing the inputs -/

/-- `WEATHER_KEYS`, pvlib/modelchain.py:26-27. -/
def weatherKeys : List String := ["ghi", "dhi", "dni", "wind_speed", "temp_air", "precipitable_water"]
/-- `POA_KEYS`, pvlib/modelchain.py:30. -/
def poaKeys : List String := ["poa_global", "poa_direct", "poa_diffuse"]

/-- `data[[k for k in keys if k in data]].copy()`. (Used for pvlib/modelchain.py:1334-1341.) -/
def DF.select (df : DF) (keys : List String) : DF :=
  ⟨df.index, keys.filterMap fun k => (df.cols.get? k).map fun s => (k, s)⟩

/-- `weather[key] = value` if the column is missing. (Used for pvlib/modelchain.py:1334-1341.) -/
def DF.default (df : DF) (key : String) (value : Fl) : DF :=
  if df.has key then df else ⟨df.index, df.cols ++ [(key, fun _ => value)]⟩

/-- `_build_weather`, pvlib/modelchain.py:1334-1341. -/
def buildWeather (data : DF) : DF := ((data.select weatherKeys).default "wind_speed" 0).default "temp_air" 20

/-- Set `weather` and `times` after `_configure_results`, pvlib/modelchain.py:1314-1350, 1364-1378. -/
def assignTimes (r : Results) : Except PyErr Results :=
  match r.weather with
  | none => .error .attributeError
  | some (.one w) => .ok { r with times := some w.index }
  | some (.tuple []) => .error .indexError
  | some (.tuple (w :: _)) => .ok { r with times := some w.index }

/-- `isinstance(weather, tuple)`, pvlib/modelchain.py:1314-1331, 1342-1347. -/
def PerArray.isTuple {α : Type} : PerArray α → Bool
  | .tuple _ => true
  | .one _ => false

/-- `_assign_weather`, pvlib/modelchain.py:1333-1350. -/
def assignWeather (sys : System) (data : PerArray DF) (r : Results) : Except PyErr Results :=
  let single := decide (sys.arrays.length = 1) && PerArray.isTuple data
  assignTimes { r with singleton := single, weather := some (wrapIf single (PerArray.map buildWeather data)) }

/-- `_assign_total_irrad`, pvlib/modelchain.py:1352-1362. -/
def assignTotalIrrad (data : PerArray DF) (r : Results) : Results :=
  { r with total_irrad := some (wrapIf r.singleton (PerArray.map (fun d => d.select poaKeys) data)) }

/-- The DataFrame whose columns go to the solar position, pvlib/modelchain.py:1231-1233. -/
def firstFrame : PerArray DF → Except PyErr DF
  | .one d => .ok d
  | .tuple (d :: _) => .ok d
  | .tuple [] => .error .indexError

/-- `_prep_inputs_solar_pos`, pvlib/modelchain.py:1226-1242. -/
def prepSolarPos (c : Chain) (s : Site) (data : PerArray DF) (r : Results) : Except PyErr Results :=
  (firstFrame data).bind fun d => (need r.times).bind fun times =>
  (s.solarPosition times c.solar_position_method (d.cols.get? "pressure") (d.cols.get? "temp_air")).bind fun sp =>
    .ok { r with solar_position := some sp }

/-- `_prep_inputs_airmass`, pvlib/modelchain.py:1255-1262, with `Location.get_airmass`. -/
def prepAirmass (c : Chain) (s : Site) (r : Results) : Except PyErr Results :=
  (need r.solar_position).bind fun sp =>
  (gather fun i => Location.getAirmass s.altitude (sp.zenith i) (sp.apparent_zenith i) c.airmass_model).bind fun am =>
    .ok { r with airmass := some ⟨fun i => (am i).1, fun i => (am i).2⟩ }

/-- `_prep_inputs_albedo`, pvlib/modelchain.py:1244-1253: a KeyError in any of the frames means the albedo of the arrays. -/
def prepAlbedo (c : Chain) (data : PerArray DF) (r : Results) : Results :=
  let albedo := match tupleFromDfs data "albedo" with
    | .ok a => a
    | .error _ => .tuple (c.system.arrays.map fun a => fun _ => a.albedo)
  { r with albedo := some (wrapIf r.singleton albedo) }

/-- `_prep_inputs_fixed`, pvlib/modelchain.py:1280-1287, with `PVSystem.get_aoi`. -/
def prepFixed (c : Chain) (r : Results) : Except PyErr Results :=
  (need r.solar_position).bind fun sp =>
  (unwrapped true (c.system.arrays.map fun a => .ok fun i => a.getAoi (sp.apparent_zenith i) (sp.azimuth i))).bind fun aoi =>
    .ok { r with aoi := some (wrapIf r.singleton (PerArray.ofResult aoi)) }

instance : Inhabited Irradiance.Poa := ⟨⟨nan, nan, nan, nan, nan, []⟩⟩
instance : Inhabited Fl := ⟨nan⟩

/-- The DataFrame returned by `get_total_irradiance`. (Used for pvlib/modelchain.py:1432-1441.) -/
def poaFrame (index : List ℝ) (p : ℕ → Irradiance.Poa) : DF :=
  ⟨index, [("poa_global", fun i => (p i).poa_global), ("poa_direct", fun i => (p i).poa_direct),
    ("poa_diffuse", fun i => (p i).poa_diffuse), ("poa_sky_diffuse", fun i => (p i).poa_sky_diffuse),
    ("poa_ground_diffuse", fun i => (p i).poa_ground_diffuse)]⟩

/-- `Array.get_irradiance` on series. (Used for pvlib/modelchain.py:1432-1441.) -/
def arrayIrradiance (c : Chain) (s : Site) (times : List ℝ) (sp : SolPos) (am : AirMass) (a : PvArr)
    (dni ghi dhi albedo : Ser) : Except PyErr DF :=
  (gather fun i => a.getIrradiance s.tb (some (s.extra times i)) (sp.apparent_zenith i) (sp.azimuth i) (dni i) (ghi i) (dhi i)
    none (some (am.relative i)) (some (albedo i)) c.transposition_model).bind fun p => .ok (poaFrame times p)

/-- The call of `PVSystem.get_irradiance` in `prepare_inputs`, pvlib/modelchain.py:1432-1441. -/
def systemIrradiance (c : Chain) (s : Site) (r : Results) : Except PyErr Results :=
  (need r.solar_position).bind fun sp => (need r.weather).bind fun w => (need r.times).bind fun times =>
  (tupleFromDfs w "dni").bind fun dni => (tupleFromDfs w "ghi").bind fun ghi => (tupleFromDfs w "dhi").bind fun dhi =>
  (need r.albedo).bind fun albedo => (need r.airmass).bind fun am =>
  (validatePerArray c.system dni true).bind fun dni => (validatePerArray c.system ghi true).bind fun ghi =>
  (validatePerArray c.system dhi true).bind fun dhi => (validatePerArray c.system albedo true).bind fun albedo =>
  (unwrapped true ((c.system.arrays.zip (dni.zip (ghi.zip (dhi.zip albedo)))).map fun p =>
    arrayIrradiance c s times sp am p.1 p.2.1 p.2.2.1 p.2.2.2.1 p.2.2.2.2)).bind fun t =>
    .ok { r with total_irrad := some (wrapIf r.singleton (PerArray.ofResult t)) }

/-- `prepare_inputs`, pvlib/modelchain.py:1380-1443. -/
def prepareInputs (c : Chain) (s : Site) (weather : PerArray DF) (r : Results) : Except PyErr Results :=
  (checkMultipleInput c.system weather false).bind fun _ => (verifyDf weather ["ghi", "dni", "dhi"]).bind fun _ =>
  (assignWeather c.system weather r).bind fun r => (prepSolarPos c s weather r).bind fun r =>
  (prepAirmass c s r).bind fun r => (prepFixed c (prepAlbedo c weather r)).bind fun r => systemIrradiance c s r

/-- `prepare_inputs_from_poa`, pvlib/modelchain.py:1471-1517. -/
def prepareInputsFromPoa (c : Chain) (s : Site) (data : PerArray DF) (r : Results) : Except PyErr Results :=
  (checkMultipleInput c.system data).bind fun _ => (assignWeather c.system data r).bind fun r =>
  (verifyDf data ["poa_global", "poa_direct", "poa_diffuse"]).bind fun _ =>
  (prepSolarPos c s data (assignTotalIrrad data r)).bind fun r => (prepAirmass c s r).bind fun r => prepFixed c r

/-! ### Angle of incidence and spectrum -/

/-- A `PVSystem` method with one per-array argument, on series. (Used for pvlib/modelchain.py:828-873.) -/
def perOne {α β : Type} (sys : System) (x : PerArray α) (wide : Bool) (f : PvArr → α → Except PyErr β) :
    Except PyErr (PerArray β) :=
  (validatePerArray sys x wide).bind fun xs =>
  (unwrapped true ((sys.arrays.zip xs).map fun p => f p.1 p.2)).bind fun t => .ok (PerArray.ofResult t)

/-- The name passed on to `get_iam`, pvlib/modelchain.py:828-866. -/
def AoiModel.name : AoiModel → String
  | .ashrae => "ashrae"
  | .physical => "physical"
  | .sapm => "sapm"
  | .martin_ruiz => "martin_ruiz"
  | .schlick => "schlick"
  | .interp => "interp"
  | .no_loss => "no_loss"

/-- `(1,) * n`, or `1` for one array. (Used for pvlib/modelchain.py:828-873.) -/
def ones (sys : System) : PerArray Ser :=
  if sys.arrays.length = 1 then .one fun _ => 1 else .tuple (List.replicate sys.arrays.length fun _ => 1)

/-- `self.aoi_model()`, pvlib/modelchain.py:828-873. -/
def runAoi (c : Chain) (s : Site) (r : Results) : Except PyErr Results :=
  match c.aoi with
  | .no_loss => .ok { r with aoi_modifier := some (wrapIf r.singleton (ones c.system)) }
  | m => (need r.aoi).bind fun aoi =>
    (perOne c.system aoi false fun a x => gather fun i => a.getIam s.interpolator (x i) m.name).bind fun v =>
      .ok { r with aoi_modifier := some (wrapIf r.singleton v) }

/-- `self.spectral_model()`, pvlib/modelchain.py:897-915. -/
def runSpectral (c : Chain) (r : Results) : Except PyErr Results :=
  match c.spectral with
  | .no_loss => .ok { r with spectral_modifier := some (wrapIf r.singleton (ones c.system)) }
  | .first_solar => (need r.weather).bind fun w => (tupleFromDfs w "precipitable_water").bind fun pw =>
    (need r.airmass).bind fun am =>
    (perOne c.system pw true fun a x => gather fun i => firstSolarOf a (am.absolute i) (x i)).bind fun v =>
      .ok { r with spectral_modifier := some (wrapIf r.singleton v) }
  | .sapm => (need r.airmass).bind fun am =>
    (perOne c.system (.one ()) true fun a _ => gather fun i => sapmSpectralOf a (am.absolute i)).bind fun v =>
      .ok { r with spectral_modifier := some (wrapIf r.singleton v) }

/-! ### Effective irradiance -/

/-- `module_parameters.get('FD', 1.)`, pvlib/modelchain.py:1104. -/
def fdOf (a : PvArr) : Except PyErr Fl :=
  match a.module_parameters.get? "FD" with
  | none => .ok 1
  | some v => v.toNum

/-- `_eff_irrad`, pvlib/modelchain.py:1103-1106. -/
def effIrrad (a : PvArr) (total_irrad : DF) (spect_mod aoi_mod : Ser) : Except PyErr Ser :=
  (fdOf a).bind fun fd =>
  (total_irrad.col "poa_direct").bind fun direct => (total_irrad.col "poa_diffuse").bind fun diffuse =>
    .ok fun i => spect_mod i * (direct i * aoi_mod i + fd * diffuse i)

/-- `effective_irradiance_model`, pvlib/modelchain.py:1102-1120.  (`zip` of a tuple with a modifier that is not one does not
occur: `ofPer` makes it an error.) -/
def ofPer {α : Type} : PerArray α → Except PyErr (List α)
  | .tuple xs => .ok xs
  | .one _ => .error .typeError

/-- Used for pvlib/modelchain.py:1684-1687. -/
def effectiveIrradianceModel (c : Chain) (r : Results) : Except PyErr Results :=
  (need r.total_irrad).bind fun ti => (need r.spectral_modifier).bind fun sm => (need r.aoi_modifier).bind fun am =>
  match ti with
  | .tuple ti => (ofPer sm).bind fun sm => (ofPer am).bind fun am =>
    (collect ((c.system.arrays.zip (ti.zip (sm.zip am))).map fun p => effIrrad p.1 p.2.1 p.2.2.1 p.2.2.2)).bind fun v =>
      .ok { r with effective_irradiance := some (wrapIf r.singleton (.tuple v)) }
  | .one ti => match c.system.arrays, sm, am with
    | a :: _, .one sm, .one am => (effIrrad a ti sm am).bind fun v =>
      .ok { r with effective_irradiance := some (wrapIf r.singleton (.one v)) }
    | [], _, _ => .error .indexError
    | _, _, _ => .error .typeError

/-! ### Cell temperature -/

/-- `_irrad_for_celltemp`, pvlib/modelchain.py:1990-2010. -/
def irradForCelltemp (total_irrad : PerArray DF) (effective_irradiance : Option (PerArray Ser)) : Except PyErr (PerArray Ser) :=
  match total_irrad with
  | .tuple dfs => if dfs.all fun d => d.has "poa_global" then tupleFromDfs (.tuple dfs) "poa_global" else need effective_irradiance
  | .one df => if df.has "poa_global" then tupleFromDfs (.one df) "poa_global" else need effective_irradiance

/-- The model name handed to `get_cell_temperature`, pvlib/modelchain.py:1008-1021. -/
def TempModel.name : TempModel → String
  | .sapm => "sapm"
  | .pvsyst => "pvsyst"
  | .faiman => "faiman"
  | .fuentes => "fuentes"
  | .noct_sam => "noct_sam"

/-- `index` as the times of the rows. (Used for pvlib/modelchain.py:981-1006.) -/
def hoursOf (index : List ℝ) : ℕ → ℝ := fun i => index.getD i 0

/-- `_set_celltemp`, pvlib/modelchain.py:981-1006 (`self.temperature_model()`). -/
def runTemp (c : Chain) (s : Site) (r : Results) : Except PyErr Results :=
  (need r.total_irrad).bind fun ti => (irradForCelltemp ti r.effective_irradiance).bind fun poa =>
  (need r.weather).bind fun w => (tupleFromDfs w "temp_air").bind fun ta => (tupleFromDfs w "wind_speed").bind fun ws =>
  (if c.temp = .noct_sam then (need r.effective_irradiance).bind fun e => .ok (PerArray.map some e)
    else .ok (.one none)).bind fun ei =>
  (need r.times).bind fun times =>
  (c.system.getCellTemperature s.sigma (hoursOf times) poa ta ws c.temp.name ei (.one none)).bind fun t =>
    .ok { r with cell_temperature := some (wrapIf r.singleton (PerArray.ofResult t)) }

/-- `_get_cell_temperature`, pvlib/modelchain.py:1519-1549: the temperature found in the data, if any. -/
def givenCellTemperature (c : Chain) (data : DF) (poa : Ser) (params : PyDict PVal) : Except PyErr (Option Ser) :=
  match data.cols.get? "cell_temperature" with
  | some t => .ok (some t)
  | none => match data.cols.get? "module_temperature" with
    | some m => if c.temp = .sapm then (getNum params "deltaT").bind fun dT =>
        .ok (some fun i => Temperature.sapmCellFromModule (m i) (poa i) dT)
      else .ok none
    | none => .ok none

/-- `_prepare_temperature`, pvlib/modelchain.py:1551-1619. -/
def prepareTemperature (c : Chain) (s : Site) (data : PerArray DF) (r : Results) : Except PyErr Results :=
  (need r.total_irrad).bind fun ti => (irradForCelltemp ti r.effective_irradiance).bind fun poa =>
  let many (dfs : List DF) : Except PyErr Results :=
    (ofPer poa).bind fun poa =>
    (collect ((dfs.zip (poa.zip (c.system.arrays.map PvArr.temperature_model_parameters))).map fun p =>
      givenCellTemperature c p.1 p.2.1 p.2.2)).bind fun given =>
    if given.all Option.isSome then
      .ok { r with cell_temperature := some (.tuple (given.filterMap id)) }
    else (runTemp c s r).bind fun r => (need r.cell_temperature).bind fun t => (ofPer t).bind fun t =>
      .ok { r with cell_temperature := some (.tuple ((given.zip t).map fun p => p.1.getD p.2)) }
  match data with
  | .one d =>
    if c.system.arrays.length = 1 then
      match c.system.arrays, poa with
      | a :: _, .one p => (givenCellTemperature c d p a.temperature_model_parameters).bind fun
        | some t => .ok { r with cell_temperature := some (wrapIf r.singleton (.one t)) }
        | none => runTemp c s { r with cell_temperature := none }
      | _, _ => .error .typeError
    else many (List.replicate c.system.arrays.length d)
  | .tuple dfs => many dfs

/-! ### DC power -/

/-- `scale_voltage_current_power` on columns, pvlib/pvsystem.py:2911-2918. -/
def scaleCols (data : PyDict Ser) (voltage current : Fl) : Except PyErr (PyDict Ser) :=
  let pick (keys : List String) (g : Fl → Fl) : PyDict Ser :=
    (data.filter fun c => decide (c.1 ∈ keys)).map fun c => (c.1, fun i => g (c.2 i))
  let df := pick ["v_mp", "v_oc"] (fun x => x * voltage) ++ pick ["i_mp", "i_x", "i_xx", "i_sc"] (fun x => x * current)
    ++ pick ["p_mp"] (fun x => x * voltage * current)
  match data.find? fun c => decide ((df.get? c.1).isNone) with
  | some c => .error (.keyError c.1)
  | none => .ok (data.map fun c => (c.1, (df.get? c.1).getD fun _ => nan))

instance : Inhabited SapmOut := ⟨⟨nan, nan, nan, nan, nan, none, none⟩⟩
instance : Inhabited SevenPoints := ⟨⟨nan, nan, nan, nan, nan, nan, nan⟩⟩
instance : Inhabited Five := ⟨⟨nan, nan, nan, nan, nan⟩⟩

/-- The DataFrame returned by `pvsystem.sapm`, pvlib/pvsystem.py:2376-2405. -/
def sapmFrame (o : ℕ → SapmOut) : PyDict Ser :=
  [("i_sc", fun i => (o i).i_sc), ("i_mp", fun i => (o i).i_mp), ("v_oc", fun i => (o i).v_oc), ("v_mp", fun i => (o i).v_mp),
    ("p_mp", fun i => (o i).p_mp)]
  ++ (if (o 0).i_x.isSome then [("i_x", fun i => (o i).i_x.getD nan)] else [])
  ++ (if (o 0).i_xx.isSome then [("i_xx", fun i => (o i).i_xx.getD nan)] else [])

/-- The DataFrame returned by `pvsystem.singlediode`. (Used for pvlib/modelchain.py:648-674.) -/
def diodeFrame (o : ℕ → SevenPoints) : PyDict Ser :=
  [("i_sc", fun i => (o i).i_sc), ("v_oc", fun i => (o i).v_oc), ("i_mp", fun i => (o i).i_mp), ("v_mp", fun i => (o i).v_mp),
    ("p_mp", fun i => (o i).p_mp), ("i_x", fun i => (o i).i_x), ("i_xx", fun i => (o i).i_xx)]

/-- `fillna(0)`. (Used for pvlib/modelchain.py:648-674.) -/
def fillna0 (x : Fl) : Fl := if isnan x then 0 else x

/-- The arguments of a DC model, one irradiance and one temperature per array. (Used for pvlib/modelchain.py:642-646.) -/
def dcArgs (c : Chain) (r : Results) : Except PyErr (List (PvArr × Ser × Ser)) :=
  (need r.effective_irradiance).bind fun e => (need r.cell_temperature).bind fun t =>
  (validatePerArray c.system e).bind fun e => (validatePerArray c.system t).bind fun t =>
    .ok (c.system.arrays.zip (e.zip t))

/-- What a DC method of the chain stores in `results.dc` for one array when there is one array and no tuple. (Used for pvlib/modelchain.py:642-646.) -/
def setDc (r : Results) (sys : System) (dc : List Dc) : Results :=
  { r with dc := some (wrapIf r.singleton (PerArray.ofResult (unwrapValue (decide (sys.arrays.length = 1)) dc))) }

/-- `ModelChain.sapm`, pvlib/modelchain.py:642-646. -/
def runSapm (c : Chain) (r : Results) : Except PyErr Results :=
  (dcArgs c r).bind fun args =>
  (collect (args.map fun p => (gather fun i => sapmOf p.1 (p.2.1 i) (p.2.2 i)).bind fun o => .ok (sapmFrame o))).bind fun frames =>
  (collect ((c.system.arrays.zip frames).map fun p => scaleCols p.2 p.1.modules_per_string p.1.strings)).bind fun frames =>
    .ok (setDc r c.system (frames.map .frame))

/-- `ModelChain._singlediode`, pvlib/modelchain.py:648-674. -/
def runSinglediode (c : Chain) (s : Site) (params : PvArr → Fl → Fl → Except PyErr Five) (r : Results) : Except PyErr Results :=
  (dcArgs c r).bind fun args =>
  (collect (args.map fun p => gather fun i => params p.1 (p.2.1 i) (p.2.2 i))).bind fun params =>
  (collect (params.map fun f => (gather fun i => singlediode s.numerics (f i)).bind fun o => .ok (diodeFrame o))).bind fun frames =>
  (collect ((c.system.arrays.zip frames).map fun p => scaleCols p.2 p.1.modules_per_string p.1.strings)).bind fun frames =>
    let filled := frames.map fun f => Dc.frame (f.map fun col => (col.1, fun i => fillna0 (col.2 i)))
    let diode := PerArray.ofResult (unwrapValue (decide (c.system.arrays.length = 1)) params)
    .ok { setDc r c.system filled with diode_params := some (wrapIf r.singleton diode) }

/-- `ModelChain.pvwatts_dc`, pvlib/modelchain.py:685-709. -/
def runPvwattsDc (c : Chain) (r : Results) : Except PyErr Results :=
  (dcArgs c r).bind fun args =>
  (collect (args.map fun p => gather fun i => pvwattsDcOf p.1 (p.2.1 i) (p.2.2 i))).bind fun dc =>
  (collect ((c.system.arrays.zip dc).map fun p => scaleCols [("p_mp", p.2)] p.1.modules_per_string p.1.strings)).bind fun scaled =>
  (collect (scaled.map fun f => argOf f "p_mp")).bind fun ps => .ok (setDc r c.system (ps.map .series))

/-- `self.dc_model()` (an attribute that was never set raises AttributeError). (Used for pvlib/modelchain.py:1824-1851.) -/
def runDc (c : Chain) (s : Site) (r : Results) : Except PyErr Results :=
  match c.dc with
  | none => .error .attributeError
  | some .sapm => runSapm c r
  | some .desoto => runSinglediode c s desotoOf r
  | some .cec => runSinglediode c s cecOf r
  | some .pvsyst => runSinglediode c s pvsystOf r
  | some .pvwatts => runPvwattsDc c r

/-! ### Losses -/

/-- `dc[name]`: a Series of power has no such label (KeyError). (Used for pvlib/modelchain.py:2059-2068.) -/
def Dc.col (d : Dc) (name : String) : Except PyErr Ser :=
  match d with
  | .series _ => .error (.keyError name)
  | .frame f => argOf f name

/-- `df[name] = s` for a column that exists. (Used for pvlib/modelchain.py:1049-1054.) -/
def Dc.setCol (d : Dc) (name : String) (x : Ser) : Dc :=
  match d with
  | .series p => .series p
  | .frame f => .frame (f.set name x)

/-- Ohmic losses of one array and what is left of its power, pvlib/modelchain.py:1049-1054, 1057-1061. -/
def ohmicOne (ohms : Fl) (d : Dc) : Except PyErr (Ser × Dc) :=
  (d.col "i_mp").bind fun i_mp =>
    let loss : Ser := fun i => dcOhmicLosses ohms (i_mp i)
    (d.col "p_mp").bind fun p => .ok (loss, d.setCol "p_mp" fun i => p i - loss i)

/-- `dc_ohms_from_percent` / `no_dc_ohmic_loss`, pvlib/modelchain.py:1040-1065.  (All losses are computed before any power is
changed; the order in which missing columns are reported is not modelled.) -/
def runOhmic (c : Chain) (r : Results) : Except PyErr Results :=
  match c.ohmic with
  | .no_loss => .ok r
  | .dc_ohms_from_percent => (need r.dc).bind fun dc => match dc with
    | .tuple dcs => (collect (c.system.arrays.map PvArr.dcOhms)).bind fun ohms =>
      (collect ((ohms.zip dcs).map fun p => ohmicOne p.1 p.2)).bind fun v =>
        .ok { r with dc_ohmic_losses := some (wrapIf r.singleton (.tuple (v.map Prod.fst))), dc := some (.tuple (v.map Prod.snd)) }
    | .one d => match c.system.arrays with
      | [a] => a.dcOhms.bind fun ohms => (ohmicOne ohms d).bind fun v =>
          .ok { r with dc_ohmic_losses := some (wrapIf r.singleton (.one v.1)), dc := some (wrapIf r.singleton (.one v.2)) }
      | _ => .error .typeError

/-- `dc *= factor`: every column. (Used for pvlib/modelchain.py:1089-1100.) -/
def Dc.scale (k : Fl) : Dc → Dc
  | .series p => .series fun i => p i * k
  | .frame f => .frame (f.map fun c => (c.1, fun i => c.2 i * k))

/-- `pvwatts_losses` / `no_extra_losses`, pvlib/modelchain.py:1089-1100. -/
def runLosses (c : Chain) (r : Results) : Except PyErr Results :=
  match c.losses with
  | .no_loss => .ok { r with losses := some 1 }
  | .pvwatts => c.system.pvwattsLosses.bind fun l =>
    let k := (100 - l) / 100
    (need r.dc).bind fun dc => .ok { r with losses := some k, dc := some (wrapIf r.singleton (PerArray.map (Dc.scale k) dc)) }

/-! ### AC power -/

/-- `_tuple_from_dfs(results.dc, name)`. (Used for pvlib/modelchain.py:751-770.) -/
def dcCols (dc : PerArray Dc) (name : String) : Except PyErr (PerArray Ser) :=
  match dc with
  | .one d => (d.col name).bind fun s => .ok (.one s)
  | .tuple ds => (collect (ds.map fun d => d.col name)).bind fun ss => .ok (.tuple ss)

/-- The values at one row. (Used for pvlib/modelchain.py:751-770.) -/
def PerArray.at (x : PerArray Ser) (i : ℕ) : PerArray Fl := PerArray.map (fun s => s i) x

/-- A DC result used as a power.  What pandas makes of a whole DataFrame in the PVWatts inverter function is not modelled: an
error here, and no theorem is about it. (Used for pvlib/modelchain.py:1551-1619.) -/
def Dc.power : Dc → Except PyErr Ser
  | .series p => .ok p
  | .frame _ => .error .typeError

/-- `results.dc` as the powers of the arrays. (Used for pvlib/modelchain.py:751-770.) -/
def dcPower (dc : PerArray Dc) : Except PyErr (PerArray Ser) :=
  match dc with
  | .one d => d.power.bind fun p => .ok (.one p)
  | .tuple ds => (collect (ds.map Dc.power)).bind fun ps => .ok (.tuple ps)

/-- `self.ac_model()`, pvlib/modelchain.py:751-770. -/
def runAc (c : Chain) (r : Results) : Except PyErr Results :=
  (need r.dc).bind fun dc => match c.ac with
  | .sandia => (dcCols dc "p_mp").bind fun p => (dcCols dc "v_mp").bind fun v =>
    (gather fun i => c.system.getAc "sandia" (PerArray.at p i) (some (PerArray.at v i))).bind fun ac =>
      .ok { r with ac := some ac }
  | .adr => match dc with
    | .tuple _ => .error .typeError
    | .one d => (d.col "p_mp").bind fun p => (d.col "v_mp").bind fun v =>
      (gather fun i => c.system.getAc "adr" (.one (p i)) (some (.one (v i)))).bind fun ac => .ok { r with ac := some ac }
  | .pvwatts =>
    (dcPower dc).bind fun p =>
    (gather fun i => c.system.getAc "pvwatts" (PerArray.at p i)).bind fun ac =>
      .ok { r with ac := some fun i => fillna0 (ac i) }

/-! ### Running the chain -/

/-- `_run_from_effective_irrad`, pvlib/modelchain.py:1824-1851. -/
def runFromEff (c : Chain) (s : Site) (data : PerArray DF) (r : Results) : Except PyErr Results :=
  (prepareTemperature c s data r).bind fun r => (runDc c s r).bind fun r => (runOhmic c r).bind fun r =>
  (runLosses c r).bind fun r => runAc c r

/-- The steps between the prepared inputs and the effective irradiance, pvlib/modelchain.py:1684-1687, 1816-1818. -/
def runOptics (c : Chain) (s : Site) (r : Results) : Except PyErr Results :=
  (runAoi c s r).bind fun r => (runSpectral c r).bind fun r => effectiveIrradianceModel c r

/-- `run_model`, pvlib/modelchain.py:1621-1691. -/
def runModel (c : Chain) (s : Site) (weather : Input) (r : Results) : Except PyErr Results :=
  let w := toTuple weather
  (prepareInputs c s w r).bind fun r => (runOptics c s r).bind fun r => runFromEff c s w r

/-- `run_model_from_poa`, pvlib/modelchain.py:1693-1822. -/
def runModelFromPoa (c : Chain) (s : Site) (data : Input) (r : Results) : Except PyErr Results :=
  let d := toTuple data
  (prepareInputsFromPoa c s d r).bind fun r => (runOptics c s r).bind fun r => runFromEff c s d r

/-- `run_model_from_effective_irradiance`, pvlib/modelchain.py:1853-1987. -/
def runModelFromEff (c : Chain) (s : Site) (data : Input) (r : Results) : Except PyErr Results :=
  let d := toTuple data
  (checkMultipleInput c.system d).bind fun _ => (verifyDf d ["effective_irradiance"]).bind fun _ =>
  (assignWeather c.system d r).bind fun r =>
  let r := assignTotalIrrad d r
  (tupleFromDfs d "effective_irradiance").bind fun e =>
  runFromEff c s d { r with effective_irradiance := some (wrapIf r.singleton e) }

/-! ### Completing the irradiance -/

/-- `weather.loc[:, key] = series` on a frame without that column. (Used for pvlib/modelchain.py:1192-1224.) -/
def DF.add (df : DF) (key : String) (x : Ser) : DF := ⟨df.index, df.cols ++ [(key, x)]⟩

instance : Inhabited Irradiance.Components := ⟨⟨nan, nan, nan⟩⟩

/-- `_complete_irradiance`, pvlib/modelchain.py:1192-1224. -/
def completeOne (c : Chain) (s : Site) (sp : SolPos) (w : DF) : Except PyErr DF :=
  match w.cols.get? "ghi", w.cols.get? "dhi", w.cols.get? "dni" with
  | some g, some d, none => (s.clearskyDni w.index c.clearsky_model sp).bind fun cs =>
    (gather fun i => Irradiance.completeIrradiance (sp.zenith i) (some (g i)) (some (d i)) none (some (cs i))).bind fun o =>
      .ok (w.add "dni" fun i => (o i).dni)
  | none, some d, some n =>
    (gather fun i => Irradiance.completeIrradiance (sp.zenith i) none (some (d i)) (some (n i)) none).bind fun o =>
      .ok (w.add "ghi" fun i => (o i).ghi)
  | some g, none, some n =>
    (gather fun i => Irradiance.completeIrradiance (sp.zenith i) (some (g i)) none (some (n i)) none).bind fun o =>
      .ok (w.add "dhi" fun i => (o i).dhi)
  | _, _, _ => .ok w

/-- `complete_irradiance`, pvlib/modelchain.py:1122-1190.  `_singleton_tuples` keeps the value of the last run: if that wraps the
frame, `_complete_irradiance` receives a tuple, which has no `columns` (AttributeError). -/
def completeIrradiance (c : Chain) (s : Site) (weather : Input) (r : Results) : Except PyErr Results :=
  let w := toTuple weather
  (checkMultipleInput c.system w).bind fun _ =>
  (assignTimes { r with weather := some (wrapIf r.singleton w) }).bind fun r => (need r.times).bind fun times =>
  (s.solarPosition times c.solar_position_method none none).bind fun sp =>
    let r := { r with solar_position := some sp }
    match w, r.weather with
    | .tuple _, some (.tuple ws) => (collect (ws.map (completeOne c s sp))).bind fun ws => .ok { r with weather := some (.tuple ws) }
    | .one _, some (.one w) => (completeOne c s sp w).bind fun w => .ok { r with weather := some (.one w) }
    | _, _ => .error .attributeError

end Pvlib.ModelChain
end
