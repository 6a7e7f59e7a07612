import Verif.Model.Spa
import Verif.Model.SolarPosition
import Verif.Model.Atmosphere

/-! # Model of the entry points of pvlib/solarposition.py: choice of method, of SPA implementation, and
conversion of times

External libraries are parameters: `numba` (present, absent, or failing to import), the compiled C SPA and
PyEphem (functions), and the calendar (year, month and clock fields of a UTC instant). -/

noncomputable section
open Fl Classical

namespace Pvlib.SolarDispatch

open Pvlib.Spa Pvlib.SolarPosition Pvlib.Atmosphere

/-! ### The spa module and its reloading -/

/-- What `from numba import jit` does: raises ImportError, succeeds, or raises something else. (Used for pvlib/spa.py:22-35.) -/
inductive Numba where
  | missing
  | works
  | broken
  deriving DecidableEq

/-- The process state involved: `spa.USE_NUMBA` and the environment variable `PVLIB_USE_NUMBA`. (Used for pvlib/spa.py:22-35.) -/
structure SpaState where
  useNumba : Bool
  env : Option String
  deriving DecidableEq

/-- Executing the head of the spa module, pvlib/spa.py:22-35 (first import or `reload`). -/
def loadSpa (numba : Numba) (s : SpaState) : Except PyErr Unit × SpaState :=
  if s.env.getD "0" ≠ "0" then
    match numba with
    | .missing => (.ok (), { s with useNumba := false })
    | .works => (.ok (), { s with useNumba := true })
    | .broken => (.error .runtimeError, s)
  else (.ok (), { s with useNumba := false })

/-- `os.environ[...] = v; spa = reload(spa); del os.environ[...]`, pvlib/solarposition.py:252-254 and 259-261. -/
def reloadWith (numba : Numba) (v : String) (s : SpaState) : Except PyErr Unit × SpaState :=
  match loadSpa numba { s with env := some v } with
  | (.error e, s) => (.error e, s)
  | (.ok (), s) => (.ok (), { s with env := none })

/-- `_spa_python_import`, pvlib/solarposition.py:238-265. -/
def spaPythonImport (numba : Numba) (how : String) (s : SpaState) : Except PyErr Unit × SpaState :=
  if how = "numpy" ∧ s.useNumba = true then reloadWith numba "0" s
  else if how = "numba" ∧ s.useNumba = false then reloadWith numba "1" s
  else if how ≠ "numba" ∧ how ≠ "numpy" then (.error .valueError, s)
  else (.ok (), s)

/-- The state after a history of calls of `_spa_python_import` with these `how` arguments (each may have raised),
pvlib/solarposition.py:238-268. -/
def afterCalls (numba : Numba) (s : SpaState) (hows : List String) : SpaState :=
  hows.foldl (fun s how => (spaPythonImport numba how s).2) s

/-- The arrays `spa.solar_position` can return (columns are times), pvlib/spa.py:1090-1097: with numba, what
is left in memory after any schedule of the threads, from any initial contents. -/
def solarPositionRuns (useNumba : Bool) (mode : Mode) (loc : Loc) (ut : List (Fl × Fl)) (numthreads : ℤ) :
    Set (List (List Fl)) :=
  if useNumba then
    { res | ∃ schedule before, Interleaving (threads mode loc ut numthreads) schedule ∧
        res = (List.range ut.length).map fun c => (List.range (dims mode)).map fun r =>
          Mem.run before schedule r c }
  else {solarPositionNumpy mode loc ut}

/-! ### Times -/

/-- Calendar fields of a UTC instant (pandas; not modelled). (Used for pvlib/solarposition.py:376-378.) -/
structure Calendar where
  fields : ℝ → UtcTime
  month : ℝ → Fl

/-- `_datetime_to_unixtime`, pvlib/solarposition.py:268-278: seconds from the epoch, which for a localized index
is the instant 1970-01-01 00:00 UTC and for a naive one the wall-clock time 1970-01-01 00:00. -/
def datetimeToUnixtime (t : TimeIndex) : List ℝ := t.times.map fun u => u - 0

/-- `spa.calculate_deltat(time_utc.year, time_utc.month)` when `delta_t is None`,
pvlib/solarposition.py:376-378, 468-469, 1026-1028. -/
def deltaTAt (cal : Calendar) (delta_t : Option Fl) (u : ℝ) : Fl :=
  match delta_t with
  | some d => d
  | none => calculateDeltat (cal.fields u).year (cal.month u)

/-- `atmos_refract or 0.5667`, pvlib/solarposition.py:364. -/
def refractDefault (a : Option Fl) : Fl :=
  match a with
  | none => 0.5667
  | some a => if a = 0 then 0.5667 else a

/-- Keyword arguments of `spa_python`. (Used for pvlib/solarposition.py:359-364.) -/
structure SpaKw where
  delta_t : Option Fl := some 67.0
  atmos_refract : Option Fl := none
  numthreads : ℤ := 4

/-- Site and weather arguments. (Used for pvlib/solarposition.py:359-364.) -/
structure Site where
  lat : Fl
  lon : Fl
  altitude : Fl
  pressure : Fl
  temperature : Fl

/-- The `loc` handed to SPA by `spa_python`, pvlib/solarposition.py:359-364. -/
def spaLoc (w : Site) (kw : SpaKw) : Loc :=
  ⟨w.lat, w.lon, w.altitude, w.pressure / 100, w.temperature, refractDefault kw.atmos_refract⟩

/-- A row of a solar position frame: the five columns every method has, and further columns. (Used for pvlib/solarposition.py:380-388.) -/
structure Row where
  apparent_zenith : Fl
  zenith : Fl
  apparent_elevation : Fl
  elevation : Fl
  azimuth : Fl
  extra : List (String × Fl) := []

/-- A row of the `spa_python` frame from a column of the SPA array, pvlib/solarposition.py:380-388. -/
def rowOfColumn (c : List Fl) : Row :=
  { apparent_zenith := c.getD 0 nan, zenith := c.getD 1 nan, apparent_elevation := c.getD 2 nan
    elevation := c.getD 3 nan, azimuth := c.getD 4 nan, extra := [("equation_of_time", c.getD 5 nan)] }

/-- `spa_python`, pvlib/solarposition.py:281-390: the frames it can return, and the state afterwards. -/
def spaPython (numba : Numba) (cal : Calendar) (how : String) (t : TimeIndex) (w : Site) (kw : SpaKw) (s : SpaState) :
    Except PyErr (Set (List Row)) × SpaState :=
  match spaPythonImport numba how s with
  | (.error e, s) => (.error e, s)
  | (.ok (), s) =>
      let ut := (datetimeToUnixtime t).zip t.times |>.map fun p => (fin p.1, deltaTAt cal kw.delta_t p.2)
      (.ok { rows | ∃ res ∈ solarPositionRuns s.useNumba .full (spaLoc w kw) ut kw.numthreads,
          rows = res.map rowOfColumn }, s)

/-- `nrel_earthsun_distance`, pvlib/solarposition.py:978-1034. -/
def nrelEarthsunDistance (numba : Numba) (cal : Calendar) (how : String) (t : TimeIndex) (delta_t : Option Fl)
    (numthreads : ℤ) (s : SpaState) : Except PyErr (Set (List Fl)) × SpaState :=
  match spaPythonImport numba how s with
  | (.error e, s) => (.error e, s)
  | (.ok (), s) =>
      let ut := (datetimeToUnixtime t).zip t.times |>.map fun p => (fin p.1, deltaTAt cal delta_t p.2)
      -- pvlib/spa.py:1214-1245: solar_position(unixtime, 0, 0, 0, 0, 0, delta_t, 0, numthreads, esd=True)[0]
      (.ok { ds | ∃ res ∈ solarPositionRuns s.useNumba .esd ⟨0, 0, 0, 0, 0, 0⟩ ut numthreads,
          ds = res.map fun c => c.getD 0 nan }, s)

/-! ### Other libraries -/

/-- The compiled SPA and PyEphem. (Used for pvlib/solarposition.py:128-235.) -/
structure Libraries where
  /-- `spa_calc` at a whole UTC second with latitude, longitude, elevation, pressure (mbar), temperature and
  delta_t: (azimuth, zenith, e, e0). -/
  spaCalc : ℤ → Fl → Fl → Fl → Fl → Fl → Fl → Fl × Fl × Fl × Fl
  /-- `sun.compute(obs)` for an observer (latitude, longitude, altitude, pressure in mbar, temperature) at an
  instant: altitude and azimuth of the sun in radians. -/
  ephemSun : Fl → Fl → Fl → Fl → Fl → ℝ → Fl × Fl

/-- `spa_c`, pvlib/solarposition.py:128-235.  `spa_calc` receives the calendar fields down to the second. -/
def spaC (lib : Libraries) (t : TimeIndex) (lat lon : Fl) (pressure : Fl := 101325) (altitude : Fl := 0)
    (temperature : Fl := 12) (delta_t : Fl := 67) : List Row :=
  t.times.map fun u =>
    let o := lib.spaCalc ⌊u⌋ lat lon altitude (pressure / 100) temperature delta_t
    { azimuth := o.1, apparent_zenith := o.2.1, apparent_elevation := o.2.2.1, elevation := o.2.2.2
      zenith := 90 - o.2.2.2 }

/-- `pyephem`, pvlib/solarposition.py:607-693. -/
def pyephem (lib : Libraries) (t : TimeIndex) (w : Site) : List Row :=
  t.times.map fun u =>
    let a := lib.ephemSun w.lat w.lon w.altitude (w.pressure / 100) w.temperature u
    let v := lib.ephemSun w.lat w.lon w.altitude 0 w.temperature u
    { apparent_elevation := Fl.degrees a.1, elevation := Fl.degrees v.1, azimuth := Fl.degrees v.2
      apparent_zenith := 90 - Fl.degrees a.1, zenith := 90 - Fl.degrees v.1
      extra := [("apparent_azimuth", Fl.degrees a.2)] }

/-- A row of the `ephemeris` frame. (Used for pvlib/solarposition.py:27-125.) -/
def rowOfEphem (o : EphemOut) : Row :=
  { apparent_zenith := o.apparent_zenith, zenith := o.zenith, apparent_elevation := o.apparent_elevation
    elevation := o.elevation, azimuth := o.azimuth, extra := [("solar_time", o.solar_time)] }

/-! ### `get_solarposition` -/

/-- The defaulting of altitude and pressure, pvlib/solarposition.py:91-97: (altitude, pressure). -/
def altPres (altitude pressure : Option Fl) : Fl × Fl :=
  match altitude, pressure with
  | none, none => (0, 101325)
  | none, some p => (pres2alt p, p)
  | some a, none => (a, alt2pres a)
  | some a, some p => (a, p)

/-- `get_solarposition`, pvlib/solarposition.py:27-125: the frames it can return (the Kepler loop of the
ephemeris method may take any number of passes), and the state afterwards.  Keyword arguments are those of
`spa_python`; the other methods are called without any. -/
def getSolarposition (numba : Numba) (lib : Libraries) (cal : Calendar) (t : TimeIndex) (lat lon : Fl)
    (altitude pressure : Option Fl) (method : String) (temperature : Fl) (kw : SpaKw) (s : SpaState) :
    Except PyErr (Set (List Row)) × SpaState :=
  let ap := altPres altitude pressure
  let w : Site := ⟨lat, lon, ap.1, ap.2, temperature⟩
  let m := pyLower method
  if m = "nrel_c" then (.ok {spaC lib t lat lon ap.2 temperature}, s)
  else if m = "nrel_numba" then spaPython numba cal "numba" t w kw s
  else if m = "nrel_numpy" then spaPython numba cal "numpy" t w kw s
  else if m = "pyephem" then (.ok {pyephem lib t w}, s)
  else if m = "ephemeris" then
    (if t.times = [] then .error .valueError
      else .ok { rows | ∃ fuel out, ephemeris fuel (t.times.map cal.fields) lat lon ap.2 temperature = .ok (some out) ∧
        rows = out.map rowOfEphem }, s)
  else (.error .valueError, s)

/-! ### `sun_rise_set_transit_spa` -/

/-- The time handed to SPA for one timestamp, pvlib/solarposition.py:463-464: midnight of the local calendar
date, labelled UTC. -/
def localDate (z : Zone) (u : ℝ) : ℝ := dayStart (wall z u)

/-- `sun_rise_set_transit_spa`, pvlib/solarposition.py:393-484: per time (sunrise, sunset, transit) as instants
(NaN for NaT; shown in the zone of the index), and the state afterwards.  The inner `solar_position` calls are
those of `spa.transit_sunrise_sunset`, whose value does not depend on threads (`C113`), so they are
represented by the pointwise function `spaSst`. -/
def sunRiseSetTransitSpa (numba : Numba) (cal : Calendar) (t : TimeIndex) (lat lon : Fl) (how : String)
    (delta_t : Option Fl) (s : SpaState) : Except PyErr (List (Fl × Fl × Fl)) × SpaState :=
  match t.tz with
  | none => (.error .valueError, s)
  | some z =>
      match spaPythonImport numba how s with
      | (.error e, s) => (.error e, s)
      | (.ok (), s) =>
          match transitSunriseSunset spaSst lat lon
              (t.times.map fun u => (fin (localDate z u), deltaTAt cal delta_t u)) with
          | .error e => (.error e, s)
          | .ok l => (.ok (l.map fun o => (o.2.1, o.2.2, o.1)), s)

/-! ### PyEphem times -/

/-- Python's `round` of a float to an integer: nearest, ties to even. (Used for pvlib/solarposition.py:487-493.) -/
def pyRound (x : ℝ) : ℤ :=
  if x - ⌊x⌋ < 1 / 2 then ⌊x⌋ else if 1 / 2 < x - ⌊x⌋ then ⌊x⌋ + 1
  else if ⌊x⌋ % 2 = 0 then ⌊x⌋ else ⌊x⌋ + 1

/-- `_ephem_convert_to_seconds_and_microseconds`, pvlib/solarposition.py:487-493 (days since noon of
1899-12-31). -/
def ephemConvert (date : ℝ) : ℤ × ℤ :=
  let microseconds := pyRound (24 * 60 * 60 * 1000000 * date)
  (microseconds / 1000000 - 2209032000, microseconds % 1000000)

/-- `_ephem_to_timezone`, pvlib/solarposition.py:496-502: the instant (s). -/
def ephemToTimezone (date : ℝ) : ℝ :=
  (ephemConvert date).1 + (ephemConvert date).2 / 1000000

/-- PyEphem's `next_*` and `previous_*` of an observer: from an instant to a PyEphem date. (Used for pvlib/solarposition.py:522-604.) -/
structure EphemEvents where
  nextRising : ℝ → ℝ
  nextSetting : ℝ → ℝ
  nextTransit : ℝ → ℝ
  previousRising : ℝ → ℝ
  previousSetting : ℝ → ℝ
  previousTransit : ℝ → ℝ

/-- `sun_rise_set_transit_ephem`, pvlib/solarposition.py:522-604: (sunrise, sunset, transit) instants. -/
def sunRiseSetTransitEphem (ev : EphemEvents) (t : TimeIndex) (next_or_previous : String) :
    Except PyErr (List (ℝ × ℝ × ℝ)) :=
  match t.tz with
  | none => .error .valueError
  | some _ =>
      if pyLower next_or_previous = "next" then
        .ok (t.times.map fun u => (ephemToTimezone (ev.nextRising u), ephemToTimezone (ev.nextSetting u),
          ephemToTimezone (ev.nextTransit u)))
      else if pyLower next_or_previous = "previous" then
        .ok (t.times.map fun u => (ephemToTimezone (ev.previousRising u), ephemToTimezone (ev.previousSetting u),
          ephemToTimezone (ev.previousTransit u)))
      else .error .valueError

end Pvlib.SolarDispatch
end
