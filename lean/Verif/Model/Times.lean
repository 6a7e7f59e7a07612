import Verif.Model.SolarDispatch
import Verif.Model.Decomposition
import Verif.Model.ToolsMisc
import Verif.Base.Calendar

/-! # Model of the date handling in `pvlib/tools.py`, `pvlib/irradiance.py` (`get_extra_radiation` on every kind of date) and
`pvlib/solarposition.py` (`calc_time`)

Times are seconds since 1970-01-01 00:00, of UTC for localized values and of the wall clock for naive ones, as in
`Verif.Model.SolarPosition`. -/

noncomputable section
open scoped Classical
namespace Pvlib.Times
open Fl Pvlib.Tools Pvlib.SolarPosition Pvlib.Calendar

/-- `toordinal()` of 1970-01-01. (Used for pvlib/tools.py:199-217.) -/
def epochOrdinal : ℕ := 719163

/-- The calendar date shown by a clock reading `w` seconds after 1970-01-01 00:00. (Used for pvlib/tools.py:199-217.) -/
def dateOf (w : ℝ) : Date := ofOrdinal (⌊w / 86400⌋ + epochOrdinal).toNat

/-- `_pandas_to_utc`, pvlib/tools.py:220-237: `tz_convert('UTC')`, or unchanged when naive (`TypeError`). -/
def pandasToUtc (t : TimeIndex) : TimeIndex :=
  match t.tz with
  | some _ => ⟨some fun _ => 0, t.times⟩
  | none => t

/-- What the clock of the index shows at its elements. (Used for pvlib/tools.py:199-217.) -/
def readings (t : TimeIndex) : List ℝ :=
  match t.tz with
  | some z => t.times.map (wall z)
  | none => t.times

/-- `_pandas_to_doy`, pvlib/tools.py:199-217. -/
def pandasToDoy (t : TimeIndex) : List ℕ := (readings (pandasToUtc t)).map fun w => (dateOf w).doy

/-- The reading of 31 December of the year before `y`, 00:00. (Used for pvlib/tools.py:254.) -/
def epochOf (y : ℕ) : ℝ := 86400 * ((yearStart y : ℝ) - (epochOrdinal : ℝ))

/-- `epoch + dt.timedelta(days=adoy)`, pvlib/tools.py:255: microseconds, half to even; NaN raises ValueError, infinities
OverflowError (listed here with the ValueErrors). -/
def addDays (epoch : ℝ) (adoy : Fl) : Except PyErr ℝ :=
  match adoy with
  | .fin d => .ok (epoch + (aroundReal (d * (86400 * 1000000)) : ℝ) / 1000000)
  | _ => .error .valueError

/-- `_doy_to_datetimeindex`, pvlib/tools.py:240-256 (naive index). -/
def doyToDatetimeindex (doy : List Fl) (epoch_year : ℕ := 2014) : Except PyErr TimeIndex :=
  match mapErr (addDays (epochOf epoch_year)) doy with
  | .error e => .error e
  | .ok l => .ok ⟨none, l⟩

/-- The kinds of argument `get_extra_radiation` takes. (Used for pvlib/irradiance.py:126-163.) -/
inductive TimeArg where
  /-- `pd.DatetimeIndex` -/
  | index (t : TimeIndex)
  /-- `pd.Timestamp` -/
  | timestamp (tz : Option Zone) (t : ℝ)
  /-- `datetime.date`, `datetime.datetime`, `np.datetime64` -/
  | datetimeLike (tz : Option Zone) (t : ℝ)
  /-- an int or float -/
  | scalar (doy : Fl)
  /-- anything else: taken as an array of days of year -/
  | array (doy : List Fl)

/-- The kinds of result. (Used for pvlib/irradiance.py:126-163.) -/
inductive ExtraOut where
  | series (index : TimeIndex) (values : List Fl)
  | scalar (value : Fl)
  | array (values : List Fl)

/-- `_datetimelike_scalar_to_datetimeindex`, pvlib/tools.py:263-264. -/
def scalarToIndex (tz : Option Zone) (t : ℝ) : TimeIndex := ⟨tz, [t]⟩

/-- `to_doy`, pvlib/irradiance.py:126-163: the days of year of the elements (`_datetimelike_scalar_to_doy`,
pvlib/tools.py:259-260, for the third kind). -/
def toDoy (x : TimeArg) : List Fl :=
  match x with
  | .index t => (pandasToDoy t).map fun d : ℕ => fin d
  | .timestamp tz t => (pandasToDoy ⟨tz, [t]⟩).map fun d : ℕ => fin d
  | .datetimeLike tz t => (pandasToDoy (scalarToIndex tz t)).map fun d : ℕ => fin d
  | .scalar doy => [doy]
  | .array doy => doy

/-- `to_datetimeindex`, pvlib/irradiance.py:126-163. -/
def toDatetimeIndex (x : TimeArg) (epoch_year : ℕ) : Except PyErr TimeIndex :=
  match x with
  | .index t => .ok t
  | .timestamp tz t => .ok (scalarToIndex tz t)
  | .datetimeLike tz t => .ok (scalarToIndex tz t)
  | .scalar doy => doyToDatetimeindex [doy] epoch_year
  | .array doy => doyToDatetimeindex doy epoch_year

/-- `_scalar_out`, pvlib/tools.py:267-275: `.item()` raises ValueError unless there is exactly one element. -/
def scalarOut (l : List Fl) : Except PyErr ExtraOut :=
  match l with
  | [v] => .ok (.scalar v)
  | _ => .error .valueError

/-- `to_output`, pvlib/irradiance.py:126-163 (`_array_out`, pvlib/tools.py:278-284, for arrays). -/
def toOutput (x : TimeArg) (l : List Fl) : Except PyErr ExtraOut :=
  match x with
  | .index t => .ok (.series t l)
  | .timestamp _ _ => scalarOut l
  | .datetimeLike _ _ => scalarOut l
  | .scalar _ => scalarOut l
  | .array _ => .ok (.array l)

/-- `pyephem_earthsun_distance`, pvlib/solarposition.py:950-975: the distance at each UTC reading; `ephemDist` is
`sun.compute(ephem.Date(t)); sun.earth_distance`, which ignores zones, so it is applied to the clock readings of the index that
`_pandas_to_utc` returns. -/
def pyephemDistance (ephemDist : ℝ → Fl) (t : TimeIndex) : List Fl := (readings (pandasToUtc t)).map ephemDist

/-- `nrel_earthsun_distance(times)` with the default arguments (`how='numpy'`, `delta_t=67.0`),
pvlib/solarposition.py:978-1034, as a function: `C124` shows `SolarDispatch.nrelEarthsunDistance` returns only this list. -/
def nrelDistance (t : TimeIndex) : List Fl :=
  (SolarDispatch.datetimeToUnixtime t).map fun u => Spa.spaRadius (fin u) 67

/-- `get_extra_radiation`, pvlib/irradiance.py:33-123, on every kind of argument.  The factor computed from a day of year is
`Irradiance.getExtraRadiation`. -/
def getExtraRadiation (ephemDist : ℝ → Fl) (x : TimeArg) (solar_constant : Fl := 1366.1) (method : String := "spencer")
    (epoch_year : ℕ := 2014) : Except PyErr ExtraOut :=
  let m := pyLower method
  if m = "asce" ∨ m = "spencer" then
    match mapErr (fun d : Fl => Irradiance.getExtraRadiation d solar_constant method) (toDoy x) with
    | .error e => .error e
    | .ok l => toOutput x l
  else if m = "pyephem" ∨ m = "nrel" then
    match toDatetimeIndex x epoch_year with
    | .error e => .error e
    | .ok times =>
      let d := if m = "pyephem" then pyephemDistance ephemDist times else nrelDistance times
      match mapErr (fun d : Fl => Irradiance.getExtraRadiation 0 solar_constant method d) d with
      | .error e => .error e
      | .ok l => toOutput x l
  else .error .valueError

/-! ### `localize_to_utc` -/

/-- The offset of a zone just before an instant, if it is constant there. (Used for pvlib/tools.py:137-140.) -/
def offsetBefore (z : Zone) (g : ℝ) : ℝ :=
  if h : ∃ o, ∃ e > 0, ∀ u, g - e < u → u < g → z u = o then h.choose else z g

/-- `time.replace(tzinfo=ZoneInfo(tz)).astimezone(utc)` of a naive `datetime` (with `fold=0`): of several instants with
that reading the earliest; for a reading that clocks skip, the offset in force before the gap (PEP 495).
(Used for pvlib/tools.py:137-140.) -/
def localizeFold0 (z : Zone) (w : ℝ) : ℝ :=
  if ∃ u, wall z u = w then sInf {u | wall z u = w}
  else w - offsetBefore z (sInf {u | w ≤ wall z u})

/-- The arguments of `localize_to_utc`; `datetime` includes `pd.Timestamp`, a subclass. (Used for pvlib/tools.py:123-147.) -/
inductive LocArg where
  | datetime (tz : Option Zone) (t : ℝ)
  | pandas (t : TimeIndex)

/-- `localize_to_utc`, pvlib/tools.py:123-147: the UTC instants. -/
def localizeToUtc (locTz : Zone) (x : LocArg) : Except PyErr (List ℝ) :=
  match x with
  | .datetime none w => .ok [localizeFold0 locTz w]
  | .datetime (some _) u => .ok [u]
  | .pandas ⟨some _, l⟩ => .ok l
  | .pandas ⟨none, l⟩ => mapErr (localizeRaise locTz) l

/-! ### `calc_time` -/

/-- `calc_time`, pvlib/solarposition.py:881-947.  `sun attr` is `getattr(sun, attr)` after `sun.compute(obs)` for an
observer (`_ephem_setup`, pvlib/solarposition.py:505-519) at a Dublin Julian day, `none` when the sun has no such attribute
(AttributeError, raised on brentq's first call); `brentq f a b xtol` is scipy's. -/
def calcTime (brentq : (ℝ → ℝ) → ℝ → ℝ → ℝ → Except PyErr ℝ) (sun : String → Option (ℝ → ℝ))
    (lower_bound upper_bound : PyDatetime) (attr : String) (value : ℝ) (xtol : ℝ := 1.0e-12) :
    Except PyErr PyDatetime :=
  match sun attr with
  | none => .error .attributeError
  | some f =>
    let lb := datetimeToDjd lower_bound
    let ub := datetimeToDjd upper_bound
    match brentq (fun thetime => f thetime - value) lb ub xtol with
    | .error e => .error e
    | .ok djd_root => .ok (djdToDatetime djd_root)

end Pvlib.Times
end
