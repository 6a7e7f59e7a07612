import Verif.Model.ModelChain
import Verif.Model.Clearsky

/-!
# Objects that can be changed in place

The other models treat data frames, dictionaries and arrays as values.  Here they are objects in a store, as in Python, so that in-place
changes and shared objects can be seen: which objects a call changes, and which objects its results share with the caller, with module-level
tables or with earlier results.

Every object (DataFrame, Series, dict, ndarray of named entries) is a list of named entries of an arbitrary type; an address is its place in
the store.  What is computed from the contents of objects is an arbitrary function.  Objects are never freed.
-/
noncomputable section
namespace Pvlib.Store
open Pvlib.Tools Pvlib.PvSystem

/-- An address: the identity of a Python object. (Used for pvlib/modelchain.py:1333-1362.) -/
abbrev Addr := ℕ

/-- The store: contents by address. (Used for pvlib/modelchain.py:1333-1362.) -/
abbrev Store (C : Type) := List (PyDict C)

variable {C : Type}

/-- The contents of an object. (Used for pvlib/modelchain.py:1333-1362.) -/
def Store.read (s : Store C) (a : Addr) : PyDict C := s.getD a []

/-- A new object. (Used for pvlib/modelchain.py:1333-1362.) -/
def Store.alloc (s : Store C) (contents : PyDict C) : Addr × Store C := (s.length, s ++ [contents])

/-- Changing an object in place. (Used for pvlib/modelchain.py:1040-1096.) -/
def Store.write (s : Store C) (a : Addr) (contents : PyDict C) : Store C := s.set a contents

/-- `object[key] = value` in place. (Used for pvlib/modelchain.py:1336-1340.) -/
def Store.put (s : Store C) (a : Addr) (key : String) (v : C) : Store C := s.write a ((s.read a).set key v)

/-- `object.copy()`. (Used for pvlib/modelchain.py:2031-2036.) -/
def Store.copy (s : Store C) (a : Addr) : Addr × Store C := s.alloc (s.read a)

/-- `data[[k for k in keys if k in data]]`: a new frame. (Used for pvlib/modelchain.py:1335-1336.) -/
def Store.select (s : Store C) (a : Addr) (keys : List String) : Addr × Store C :=
  s.alloc (keys.filterMap fun k => ((s.read a).get? k).map fun v => (k, v))

/-- A comprehension `tuple(f(x) for x in l)` over objects. (Used for pvlib/modelchain.py:1343, 1357-1359, 2036.) -/
def mapStore {X Y : Type} (f : Store C → X → Y × Store C) : Store C → List X → List Y × Store C
  | s, [] => ([], s)
  | s, x :: t =>
    let r := f s x
    let rest := mapStore f r.2 t
    (r.1 :: rest.1, rest.2)

/-- A loop `for x in l: f(x)` that changes objects. (Used for pvlib/modelchain.py:1053-1054, 1092-1093, 1186-1187.) -/
def forStore {X : Type} (f : Store C → X → Store C) : Store C → List X → Store C
  | s, [] => s
  | s, x :: t => forStore f (f s x) t

/-! ### Runs of a ModelChain -/

/-- What a ModelChain computes, as arbitrary functions of the contents read: the constants 0 and 20, the missing component of
`complete_irradiance`, the irradiance on each array, the DC results of each array, the power left after resistive losses, the scaling by the
loss factor, the AC results.  A frame is passed as its contents. (Used for pvlib/modelchain.py:1192-1224, 1432-1441, 1845-1849.) -/
structure Engine (C : Type) where
  zero : C
  twenty : C
  completed : PyDict C → String → C
  irradiance : List (PyDict C) → List (PyDict C) → List (PyDict C)
  effective : List (PyDict C) → List (PyDict C) → List C
  temperature : List (PyDict C) → List (PyDict C) → List C → List (PyDict C) → List C
  dc : List C → List C → List (PyDict C)
  ohmic : PyDict C → C
  losses : C → C
  ac : List (PyDict C) → PyDict C

/-- The choices of a ModelChain that decide which objects are changed: resistive losses, PVWatts losses.
(Used for pvlib/modelchain.py:1028-1100.) -/
structure Chain where
  percent : Bool
  pvwattsLosses : Bool

/-- The results that are objects of their own: `results.weather`, `results.total_irrad`, `results.dc`, `results.ac`.
(Used for pvlib/modelchain.py:139-240.) -/
structure Results where
  weather : List Addr := []
  total_irrad : List Addr := []
  dc : List Addr := []
  ac : Option Addr := none

/-- `_build_weather`, pvlib/modelchain.py:1334-1341. -/
def buildWeather (e : Engine C) (s : Store C) (data : Addr) : Addr × Store C :=
  let r := s.select data ModelChain.weatherKeys
  let r := r.2.copy r.1
  let weather := r.1
  let s := r.2
  let s := if ((s.read weather).get? "wind_speed").isNone then s.put weather "wind_speed" e.zero else s
  let s := if ((s.read weather).get? "temp_air").isNone then s.put weather "temp_air" e.twenty else s
  (weather, s)

/-- `_build_irrad`, pvlib/modelchain.py:1353-1355. -/
def buildIrrad (s : Store C) (data : Addr) : Addr × Store C :=
  let r := s.select data ModelChain.poaKeys
  r.2.copy r.1

/-- Making the computed frames, one new object each. (Used for pvlib/modelchain.py:1432-1441, 1846.) -/
def allocAll (s : Store C) (frames : List (PyDict C)) : List Addr × Store C := mapStore (fun s f => s.alloc f) s frames

/-- `dc_ohms_from_percent`, pvlib/modelchain.py:1040-1062: the power of each array's frame is changed in place. -/
def dcOhms (e : Engine C) (c : Chain) (s : Store C) (dc : List Addr) : Store C :=
  if c.percent then forStore (fun s a => s.put a "p_mp" (e.ohmic (s.read a))) s dc else s

/-- `pvwatts_losses`, pvlib/modelchain.py:1089-1096: `dc *= losses` in place. -/
def pvwattsLosses (e : Engine C) (c : Chain) (s : Store C) (dc : List Addr) : Store C :=
  if c.pvwattsLosses then forStore (fun s a => s.write a ((s.read a).map fun p => (p.1, e.losses p.2))) s dc else s

/-- `_run_from_effective_irrad`, pvlib/modelchain.py:1824-1851, from the effective irradiance (columns, possibly the caller's own) and the data
given; the modelled or given cell temperatures are columns too. -/
def runFromEffective (e : Engine C) (c : Chain) (s : Store C) (weather total data : List Addr) (effective : List C) : Results × Store C :=
  let temperature := e.temperature (weather.map s.read) (total.map s.read) effective (data.map s.read)
  let r := allocAll s (e.dc effective temperature)
  let dc := r.1
  let s := dcOhms e c r.2 dc
  let s := pvwattsLosses e c s dc
  let r := s.alloc (e.ac (dc.map s.read))
  (⟨weather, total, dc, some r.1⟩, r.2)

/-- `run_model`, pvlib/modelchain.py:1621-1691, with `prepare_inputs`, pvlib/modelchain.py:1380-1443.  One frame or one frame per array: `data` is
the list of frames. -/
def runModel (e : Engine C) (c : Chain) (s : Store C) (data : List Addr) : Results × Store C :=
  let r := mapStore (buildWeather e) s data
  let weather := r.1
  let r := allocAll r.2 (e.irradiance (weather.map r.2.read) (data.map r.2.read))
  runFromEffective e c r.2 weather r.1 data (e.effective (r.1.map r.2.read) (weather.map r.2.read))

/-- `run_model_from_poa`, pvlib/modelchain.py:1693-1822, with `prepare_inputs_from_poa`, pvlib/modelchain.py:1471-1517. -/
def runModelFromPoa (e : Engine C) (c : Chain) (s : Store C) (data : List Addr) : Results × Store C :=
  let r := mapStore (buildWeather e) s data
  let weather := r.1
  let r := mapStore buildIrrad r.2 data
  runFromEffective e c r.2 weather r.1 data (e.effective (r.1.map r.2.read) (weather.map r.2.read))

/-- `run_model_from_effective_irradiance`, pvlib/modelchain.py:1853-1987. -/
def runModelFromEffective (e : Engine C) (c : Chain) (s : Store C) (data : List Addr) : Results × Store C :=
  let r := mapStore (buildWeather e) s data
  let weather := r.1
  let r := mapStore buildIrrad r.2 data
  runFromEffective e c r.2 weather r.1 data (data.filterMap fun a => (r.2.read a).get? "effective_irradiance")

/-- `_complete_irradiance`, pvlib/modelchain.py:1192-1224: the missing component is written into the frame given. -/
def completeFrame (e : Engine C) (s : Store C) (w : Addr) : Store C :=
  let has (k : String) : Bool := ((s.read w).get? k).isSome
  if has "ghi" && has "dhi" && !has "dni" then s.put w "dni" (e.completed (s.read w) "dni")
  else if has "dni" && has "dhi" && !has "ghi" then s.put w "ghi" (e.completed (s.read w) "ghi")
  else if has "dni" && has "ghi" && !has "dhi" then s.put w "dhi" (e.completed (s.read w) "dhi")
  else s

/-- `complete_irradiance` of a ModelChain, pvlib/modelchain.py:1102-1190, `_copy`, pvlib/modelchain.py:2031-2036: the frames are copied, then completed. -/
def completeIrradiance (e : Engine C) (s : Store C) (data : List Addr) : Results × Store C :=
  let r := mapStore (fun s a => s.copy a) s data
  ({ weather := r.1 }, forStore (completeFrame e) r.2 r.1)

/-- The four public calls. (Used for pvlib/modelchain.py:1102-1987.) -/
inductive Call
  | run | fromPoa | fromEffective | complete

/-- A call of one of them. (Used for pvlib/modelchain.py:1102-1987.) -/
def Call.run' (k : Call) (e : Engine C) (c : Chain) (s : Store C) (data : List Addr) : Results × Store C :=
  match k with
  | .run => runModel e c s data
  | .fromPoa => runModelFromPoa e c s data
  | .fromEffective => runModelFromEffective e c s data
  | .complete => completeIrradiance e s data

/-- The result objects. (Used for pvlib/modelchain.py:139-240.) -/
def Results.objects (r : Results) : List Addr := r.weather ++ r.total_irrad ++ r.dc ++ r.ac.toList

/-- What can happen to the store between runs: another call of a ModelChain (any engine, any choices), a new object, or the caller changing an
object of his own. (Used for pvlib/modelchain.py:1102-1987.) -/
inductive Event (C : Type)
  | call (k : Call) (e : Engine C) (c : Chain) (data : List Addr)
  | new (contents : PyDict C)
  | change (a : Addr) (contents : PyDict C)

/-- One event. (Used for pvlib/modelchain.py:1102-1987.) -/
def Event.step (s : Store C) : Event C → Store C
  | .call k e c data => (k.run' e c s data).2
  | .new contents => (s.alloc contents).2
  | .change a contents => s.write a contents

/-! ### Tables and presets -/

/-- `dict.update`. (Used for pvlib/modelchain.py:481, 559.) -/
def Store.update (s : Store C) (a : Addr) (kwargs : PyDict C) : Store C := forStore (fun s p => s.put a p.1 p.2) s kwargs

/-- `with_pvwatts` and `with_sapm` up to the construction, pvlib/modelchain.py:480-481, 558-559: the module-level dictionary at `config` is copied and
the copy updated; the result is the dictionary passed on. -/
def presetConfig (s : Store C) (config : Addr) (kwargs : PyDict C) : Addr × Store C :=
  let r := s.copy config
  (r.1, r.2.update r.1 kwargs)

/-- `sky_components = poa_sky_diffuse.copy(); total = sky_components.pop('poa_sky_diffuse')`, pvlib/irradiance.py:552-554, and the resulting
dictionary, pvlib/irradiance.py:566-573, from the other components `rest`; KeyError if there is no total. -/
def poaComponents (s : Store C) (sky : Addr) (rest : C → PyDict C) : Except PyErr (Addr × Store C) :=
  let r := s.copy sky
  match (r.2.read r.1).get? "poa_sky_diffuse" with
  | none => .error (.keyError "poa_sky_diffuse")
  | some total =>
    let s := r.2.write r.1 ((r.2.read r.1).filter fun p => p.1 ≠ "poa_sky_diffuse")
    let r := (s.alloc ((s.read r.1).foldl (fun d p => d.set p.1 p.2) (rest total)))
    .ok r

/-- The dictionary of `_golden_sect_DataFrame`, pvlib/tools.py:389-406, 417: a copy of the caller's, in which the bounds and function values are
written; `values` are the entries written, in order. -/
def goldenDict (s : Store C) (params : Addr) (values : PyDict C) : Addr × Store C :=
  let r := s.copy params
  (r.1, r.2.update r.1 values)

/-- `kwargs_trimmed = method_kwargs.copy(); kwargs_trimmed.pop("full_output", None)`, pvlib/singlediode.py:359-360, 530-531, 695-696. -/
def trimmedKwargs (s : Store C) (method_kwargs : Addr) : Addr × Store C :=
  let r := s.copy method_kwargs
  (r.1, r.2.write r.1 ((r.2.read r.1).filter fun p => p.1 ≠ "full_output"))

/-- The parameters of one request of `get_merra2`, pvlib/iotools/merra2.py:172-173: a copy of the common ones with the variable's name. -/
def merra2Query (s : Store C) (parameters : Addr) (name : C) : Addr × Store C :=
  let r := s.copy parameters
  (r.1, r.2.put r.1 "data" name)

/-- The requests of `get_merra2`, one per variable, pvlib/iotools/merra2.py:170-176. -/
def merra2Queries (s : Store C) (parameters : Addr) (names : List C) : List Addr × Store C :=
  mapStore (fun s n => merra2Query s parameters n) s names

/-! ### Parameter dictionaries of arrays and systems -/

/-- The dictionaries of an Array, pvlib/pvsystem.py:980-999. -/
structure ArrayObj where
  module_parameters : Addr
  temperature_model_parameters : Addr
  array_losses_parameters : Addr

/-- `x if x is not None else {}`. (Used for pvlib/pvsystem.py:980-999, 234-242.) -/
def orNew (s : Store C) (x : Option Addr) : Addr × Store C :=
  match x with
  | some a => (a, s)
  | none => s.alloc []

/-- `TEMPERATURE_MODEL_PARAMETERS`: the addresses of its inner dictionaries, pvlib/temperature.py:15-25. -/
structure TempTable where
  sapm : List (String × Addr)
  freestanding : Addr
  insulated : Addr
  semi_integrated : Addr

/-- `_infer_temperature_model_params`, pvlib/pvsystem.py:1013-1029, `_temperature_model_params`, pvlib/temperature.py:45-54: the dictionary of the
table itself, or a new one. -/
def inferTemperature (s : Store C) (table : TempTable) (param_set : String) : Addr × Store C :=
  match table.sapm.lookup param_set with
  | some a => (a, s)
  | none =>
    if hasSub "freestanding" param_set then (table.freestanding, s)
    else if hasSub "insulated" param_set then (table.insulated, s)
    else if hasSub "semi_integrated" param_set then (table.semi_integrated, s)
    else s.alloc []

/-- The arguments of Array that are dictionaries. (Used for pvlib/pvsystem.py:963-999.) -/
structure ArrayArgs where
  module_parameters : Option Addr := none
  temperature_model_parameters : Option Addr := none
  array_losses_parameters : Option Addr := none
  param_set : String := "None_None"

/-- The temperature parameters: given or inferred, pvlib/pvsystem.py:990-994. -/
def temperatureDict (s : Store C) (table : TempTable) (args : ArrayArgs) : Addr × Store C :=
  match args.temperature_model_parameters with
  | some a => (a, s)
  | none => inferTemperature s table args.param_set

/-- `Array.__init__`, pvlib/pvsystem.py:963-1001, as far as dictionaries are concerned; `param_set` is `f'{racking_model}_{module_type}'`. -/
def newArray (s : Store C) (table : TempTable) (args : ArrayArgs) : ArrayObj × Store C :=
  let m := orNew s args.module_parameters
  let t := temperatureDict m.2 table args
  let l := orNew t.2 args.array_losses_parameters
  (⟨m.1, t.1, l.1⟩, l.2)

/-- The dictionaries of a PVSystem with one array made from its arguments. (Used for pvlib/pvsystem.py:193-244.) -/
structure SystemObj where
  array : ArrayObj
  inverter_parameters : Addr
  losses_parameters : Addr

/-- `PVSystem.__init__` with `arrays=None`, pvlib/pvsystem.py:204-242; `_build_kwargs` makes a new dictionary. -/
def newSystem (s : Store C) (table : TempTable) (args : ArrayArgs) (inverter losses : Option Addr) : SystemObj × Store C :=
  let l := match losses with
    | none => s.alloc []
    | some a => s.alloc (buildKwargs ["dc_ohmic_percent"] (s.read a))
  let arr := newArray l.2 table { args with array_losses_parameters := some l.1 }
  let i := orNew arr.2 inverter
  let p := orNew i.2 losses
  (⟨arr.1, i.1, p.1⟩, p.2)

/-! ### The calendar of the Linke turbidity interpolation -/

/-- `_calendar_month_middles`, pvlib/clearsky.py:264-279, with `calendar.mdays` an object at `mdays` (entries named "0" to "12"): a local copy is
changed for leap years. -/
def monthMiddlesStore (s : Store ℝ) (mdays : Addr) (leap : Bool) : List ℝ × Store ℝ :=
  let r := s.alloc ((s.read mdays).drop 1)
  let s := if leap then r.2.put r.1 "2" ((((r.2.read r.1).get? "2").getD 0) + 1) else r.2
  let days := (s.read r.1).map Prod.snd
  let ydays : ℝ := if leap then 366 else 365
  ([-(((s.read mdays).getLast?.map Prod.snd).getD 0) / 2] ++
    List.zipWith (fun c d => c - d / 2) (Clearsky.cumsum 0 days) days ++ [ydays + (((s.read mdays).get? "1").getD 0) / 2], s)

end Pvlib.Store
end
