import Verif.Model.Tools
import Verif.Base.Series

/-! # Model of `pvlib/tools.py`: golden-section search, lookups, keyword helpers, Dublin Julian days -/

noncomputable section
open scoped Classical
namespace Pvlib.Tools
open Fl

/-! ### `_golden_sect_DataFrame` -/

/-- A numpy bool used as a number (`df['V2']*df['SW_Flag']`). (Used for pvlib/tools.py:397-406.) -/
def boolFl (b : Prop) : Fl := if b then 1 else 0

/-- `phim1`, pvlib/tools.py:387. -/
def phim1 : Fl := (Fl.sqrt 5 - 1) / 2

/-- The DataFrame columns the loop reads and writes, pvlib/tools.py:389-408. -/
structure GoldState where
  VH : Series
  VL : Series
  V1 : Series
  V2 : Series

/-- One pass of the loop body, pvlib/tools.py:397-406.  `func` is the objective: it maps the column of
abscissas to the column of values (it may use the parameters in any way, so it is an arbitrary function of
columns). -/
def goldPass (func : Series → Series) (s : GoldState) : GoldState :=
  let phi : Series := fun i => phim1 * (s.VH i - s.VL i)
  let V1 : Series := fun i => s.VL i + phi i
  let V2 : Series := fun i => s.VH i - phi i
  let f1 := func V1
  let f2 := func V2
  let SW : ℕ → Prop := fun i => f2 i < f1 i
  { VL := fun i => V2 i * boolFl (SW i) + s.VL i * boolFl (¬ SW i)
    VH := fun i => V1 i * boolFl (¬ SW i) + s.VH i * boolFl (SW i)
    V1 := V1, V2 := V2 }

/-- The exit test, pvlib/tools.py:408-414: all non-NaN errors of the `n` elements are below `atol`. -/
def goldConverged (n : ℕ) (atol : Fl) (s : GoldState) : Prop :=
  ∀ i < n, ¬ isnan (Fl.abs (s.V2 i - s.V1 i)) → Fl.abs (s.V2 i - s.V1 i) < atol

/-- The `while` loop, pvlib/tools.py:395-414, allowed at most `fuel` passes; `none` means that it has not
stopped by then. -/
def goldLoop (n : ℕ) (func : Series → Series) (atol : Fl) : ℕ → GoldState → Option GoldState
  | 0, _ => none
  | fuel + 1, s =>
      let s' := goldPass func s
      if goldConverged n atol s' then some s' else goldLoop n func atol fuel s'

/-- `_golden_sect_DataFrame`, pvlib/tools.py:342-424, on vectors of `n` elements: (func_result, x).
`V1`/`V2` have no initial value in the code; the zeros below are overwritten by the first pass. -/
def goldenSect (n : ℕ) (lower upper : Series) (func : Series → Series) (atol : Fl) (fuel : ℕ) :
    Except PyErr (Option (Series × Series)) :=
  if ∃ i < n, upper i - lower i < 0 then .error .valueError
  else
    match goldLoop n func atol fuel ⟨upper, lower, fun _ => 0, fun _ => 0⟩ with
    | none => .ok none
    | some s =>
        let max : Series := fun i => 0.5 * (s.V1 i + s.V2 i)
        let func_result := func max
        .ok (some (func_result, fun i => npwhere (isnan (func_result i)) nan (max i)))

/-! ### `_degrees_to_index` -/

/-- `np.around` of a real: round half to even. (Used for pvlib/tools.py:176-196.) -/
def aroundReal (x : ℝ) : ℤ :=
  if x - ⌊x⌋ < 1 / 2 then ⌊x⌋
  else if 1 / 2 < x - ⌊x⌋ then ⌊x⌋ + 1
  else if Even ⌊x⌋ then ⌊x⌋ else ⌊x⌋ + 1

/-- `int(np.around(x))`: raises on NaN (ValueError) and on infinities (OverflowError, not reachable
here). (Used for pvlib/tools.py:485-503.) -/
def intAround : Fl → Except PyErr ℤ
  | fin x => .ok (aroundReal x)
  | _ => .error .valueError

/-- The range test and rounding of `_degrees_to_index`, pvlib/tools.py:485-503 (`outputmax` already shifted
to zero indexing). -/
def indexOfReal (index : Fl) (outputmax : ℤ) : Except PyErr ℤ :=
  if fin outputmax < index then
    if index - fin outputmax ≤ 0.500001 then .ok outputmax else .error .valueError
  else if index < 0 then
    if -index ≤ 0.500001 then .ok 0 else .error .valueError
  else intAround index

/-- The affine map of `_degrees_to_index`, pvlib/tools.py:477-481. -/
def degreesToReal (degrees inputmin inputmax : Fl) (outputmax : ℤ) : Fl :=
  let inputrange := inputmax - inputmin
  let scale := fin outputmax / inputrange
  let center := inputmin + 1 / scale / 2
  (degrees - center) * scale

/-- `_degrees_to_index`, pvlib/tools.py:448-503. -/
def degreesToIndex (degrees : Fl) (coordinate : String) : Except PyErr ℤ :=
  if coordinate = "latitude" then indexOfReal (degreesToReal degrees 90 (-90) 2160) (2160 - 1)
  else if coordinate = "longitude" then indexOfReal (degreesToReal degrees (-180) 180 4320) (4320 - 1)
  else .error .valueError

/-! ### `_build_kwargs`, `_build_args` -/

/-- A Python dict with string keys: association list in insertion order. (Used for pvlib/tools.py:303-307.) -/
abbrev PyDict (α : Type) := List (String × α)

/-- `d[key]` when present. (Used for pvlib/tools.py:303-307.) -/
def PyDict.get? {α : Type} (d : PyDict α) (key : String) : Option α :=
  match d with
  | [] => none
  | (k, v) :: rest => if k = key then some v else PyDict.get? rest key

/-- `d[key] = v`: replaces in place, or appends. (Used for pvlib/tools.py:303-307.) -/
def PyDict.set {α : Type} (d : PyDict α) (key : String) (v : α) : PyDict α :=
  match d with
  | [] => [(key, v)]
  | (k, w) :: rest => if k = key then (k, v) :: rest else (k, w) :: PyDict.set rest key v

/-- Body of the loop of `_build_kwargs`, pvlib/tools.py:303-307. -/
def kwargsStep {α : Type} (input_dict kwargs : PyDict α) (key : String) : PyDict α :=
  match input_dict.get? key with
  | some v => kwargs.set key v
  | none => kwargs

/-- `_build_kwargs`, pvlib/tools.py:287-309. -/
def buildKwargs {α : Type} (keys : List String) (input_dict : PyDict α) : PyDict α :=
  keys.foldl (kwargsStep input_dict) []

/-- `input_dict[key]` in the comprehension of `_build_args`, pvlib/tools.py:329-334. -/
def argOf {α : Type} (input_dict : PyDict α) (key : String) : Except PyErr α :=
  match input_dict.get? key with
  | some v => .ok v
  | none => .error (.keyError key)

/-- `_build_args`, pvlib/tools.py:312-335 (the message of the KeyError names the missing key; the rest of
the message is not modelled). -/
def buildArgs {α : Type} (keys : List String) (input_dict : PyDict α) : Except PyErr (List α) :=
  match keys with
  | [] => .ok []
  | key :: rest =>
    match argOf input_dict key with
    | .error e => .error e
    | .ok v =>
      match buildArgs rest input_dict with
      | .error e => .error e
      | .ok vs => .ok (v :: vs)

/-! ### Dublin Julian days -/

/-- A `datetime`: naive (wall-clock microseconds since 0001-01-01) or aware (UTC microseconds, and the
name of its zone). (Used for pvlib/tools.py:150-173.) -/
inductive PyDatetime where
  | naive (wall : ℤ)
  | aware (utc : ℤ) (zone : String)
  deriving DecidableEq

/-- 1899-12-31 12:00 UTC in microseconds since 0001-01-01 00:00, pvlib/tools.py:170
(693594 days and 12 hours). -/
def djdStart : ℤ := (693594 * 24 + 12) * 3600 * 1000000

/-- `datetime_to_djd`, pvlib/tools.py:150-173 (`total_seconds()` exact). -/
def datetimeToDjd (time : PyDatetime) : ℝ :=
  let time_utc := match time with
    | .naive w => w
    | .aware u _ => u
  ((time_utc - djdStart : ℤ) : ℝ) / 1000000 * 1 / (60 * 60 * 24)

/-- `djd_to_datetime`, pvlib/tools.py:176-196: `timedelta(days=djd)` rounds to microseconds, half to
even. -/
def djdToDatetime (djd : ℝ) (tz : String := "UTC") : PyDatetime :=
  .aware (djdStart + aroundReal (djd * (24 * 3600 * 1000000))) tz

end Pvlib.Tools
end
