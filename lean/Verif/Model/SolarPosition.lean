import Verif.Model.Tools
import Verif.Model.Decomposition

/-! # Model of `pvlib/solarposition.py`: analytical expressions, local times, the `ephemeris` algorithm -/

noncomputable section
open scoped Classical
open Real
namespace Pvlib.SolarPosition
open Fl Pvlib.Irradiance

/-! ### Analytical expressions -/

/-- `equation_of_time_spencer71`, pvlib/solarposition.py:1054-1116 (minutes). -/
def equationOfTimeSpencer71 (dayofyear : Fl) : Fl :=
  let day_angle := simpleDayAngle dayofyear
  fin (1440.0 / 2 / π) *
    (0.0000075 + 0.001868 * Fl.cos day_angle - 0.032077 * Fl.sin day_angle -
      0.014615 * Fl.cos (2.0 * day_angle) - 0.040849 * Fl.sin (2.0 * day_angle))

/-- `equation_of_time_pvcdrom`, pvlib/solarposition.py:1119-1150 (minutes). -/
def equationOfTimePvcdrom (dayofyear : Fl) : Fl :=
  let bday := simpleDayAngle dayofyear - fin (2.0 * π / 365.0) * 80.0
  9.87 * Fl.sin (2.0 * bday) - 7.53 * Fl.cos bday - 1.5 * Fl.sin bday

/-- `declination_spencer71`, pvlib/solarposition.py:1153-1194 (radians). -/
def declinationSpencer71 (dayofyear : Fl) : Fl :=
  let day_angle := simpleDayAngle dayofyear
  0.006918 - 0.399912 * Fl.cos day_angle + 0.070257 * Fl.sin day_angle -
    0.006758 * Fl.cos (2 * day_angle) + 0.000907 * Fl.sin (2 * day_angle) -
    0.002697 * Fl.cos (3 * day_angle) + 0.00148 * Fl.sin (3 * day_angle)

/-- `declination_cooper69`, pvlib/solarposition.py:1197-1241 (radians). -/
def declinationCooper69 (dayofyear : Fl) : Fl :=
  let day_angle := simpleDayAngle dayofyear
  Fl.radians (23.45 * Fl.sin (day_angle + fin (2.0 * π / 365.0) * 285.0))

/-- `np.isclose(x, c, rtol=0.0, atol=1e-8)`, used at pvlib/solarposition.py:1298-1305 with finite `c`. -/
def isclose8 (x c : Fl) : Prop := Fl.abs (x - c) ≤ 1e-8

/-- `solar_azimuth_analytical`, pvlib/solarposition.py:1244-1311 (radians in, radians out). -/
def solarAzimuthAnalytical (latitude hourangle declination zenith : Fl) : Fl :=
  let numer := Fl.cos zenith * Fl.sin latitude - Fl.sin declination
  let denom := Fl.sin zenith * Fl.cos latitude
  let cos_azi := numer / denom
  let cos_azi := npwhere (isclose8 denom 0) 1 cos_azi
  let cos_azi := npwhere (isclose8 cos_azi 1) 1 cos_azi
  let cos_azi := npwhere (isclose8 cos_azi (-1)) (-1) cos_azi
  let sign_ha := Fl.sign hourangle
  sign_ha * Fl.arccos cos_azi + fin π

/-- `solar_zenith_analytical`, pvlib/solarposition.py:1314-1363 (radians). -/
def solarZenithAnalytical (latitude hourangle declination : Fl) : Fl :=
  Fl.arccos (Fl.cos declination * Fl.cos latitude * Fl.cos hourangle +
    Fl.sin declination * Fl.sin latitude)

/-! ### Local times

A time zone is the function giving, for every UTC instant (seconds since the epoch), the offset (seconds)
that local clocks are ahead of UTC.  An element of a localized `DatetimeIndex` is its UTC instant. -/

/-- Offset of local clocks ahead of UTC (s), by UTC instant (s). (Used for pvlib/solarposition.py:1446-1466.) -/
abbrev Zone := ℝ → ℝ

/-- A `DatetimeIndex`: the zone if it is localized, and the instants (UTC seconds; for a naive index, its
wall-clock seconds). (Used for pvlib/solarposition.py:1366-1417.) -/
structure TimeIndex where
  tz : Option Zone
  times : List ℝ

/-- The wall-clock reading at an instant. (Used for pvlib/solarposition.py:1446-1466.) -/
def wall (z : Zone) (u : ℝ) : ℝ := u + z u

/-- `normalize()` of a naive (wall-clock) time: midnight of its day. (Used for pvlib/solarposition.py:1446-1466.) -/
def dayStart (w : ℝ) : ℝ := 86400 * ⌊w / 86400⌋

/-- `tz_localize(tz, ambiguous='raise', nonexistent='raise')` of one wall-clock time: the unique instant at
which local clocks show it; `ValueError` (pandas: Ambiguous/NonExistentTimeError, both derived from
ValueError) if there is none or more than one. (Used for pvlib/solarposition.py:1432-1443.) -/
def localizeRaise (z : Zone) (w : ℝ) : Except PyErr ℝ :=
  if h : ∃! u, wall z u = w then .ok h.choose else .error .valueError

/-- `tz_localize(tz, nonexistent='shift_forward', ambiguous='raise')` of one wall-clock time: if no clock
ever shows it, the first instant at which clocks are past it. (Used for pvlib/solarposition.py:1446-1466.) -/
def localizeShift (z : Zone) (w : ℝ) : Except PyErr ℝ :=
  if ∃ u, wall z u = w then localizeRaise z w
  else .ok (sInf {u | w ≤ wall z u})

/-- `_times_to_hours_after_local_midnight`, pvlib/solarposition.py:1446-1466, one element. -/
def hoursAfterMidnight (z : Zone) (u : ℝ) : Except PyErr ℝ :=
  (localizeShift z (dayStart (wall z u))).bind fun m => .ok ((u - m) / 3600)

/-- Elementwise application of a step that can raise: the first exception wins. (Used for pvlib/solarposition.py:1366-1417.) -/
def mapErr {α β : Type} (f : α → Except PyErr β) : List α → Except PyErr (List β)
  | [] => .ok []
  | a :: as => (f a).bind fun b => (mapErr f as).bind fun bs => .ok (b :: bs)

/-- `hour_angle`, pvlib/solarposition.py:1366-1417 (degrees).  `equation_of_time` has one entry per time
(minutes); entries are paired by position. -/
def hourAngle (t : TimeIndex) (longitude : Fl) (equation_of_time : List Fl) : Except PyErr (List Fl) :=
  match t.tz with
  | none => .error .valueError
  | some z =>
      (mapErr (fun p : ℝ × Fl => (hoursAfterMidnight z p.1).bind fun hrs =>
          let hrs_minus_tzs : Fl := fin hrs - fin (z p.1 / 3600)
          .ok (15 * (hrs_minus_tzs - 12) + longitude + p.2 / 4))
        (t.times.zip equation_of_time))

/-- `_hour_angle_to_hours`, pvlib/solarposition.py:1420-1429, one element. -/
def hourAngleToHours (z : Zone) (u : ℝ) (hourangle longitude equation_of_time : Fl) : Fl :=
  (hourangle - longitude - equation_of_time / 4) / 15 + 12 + fin (z u / 3600)

/-- `_local_times_from_hours_since_midnight`, pvlib/solarposition.py:1432-1443, one element:
`times.normalize()` re-localizes midnight with both flags at `'raise'`; `pd.to_timedelta` of NaN is NaT
(and `NaT + t` is NaT), and an infinite number of hours raises OverflowError, listed here with the
ValueErrors.  The result is a UTC instant (s), NaN standing for NaT. -/
def localTimeFromHours (z : Zone) (u : ℝ) (hours : Fl) : Except PyErr Fl :=
  (localizeRaise z (dayStart (wall z u))).bind fun m =>
    match hours with
    | .nan => .ok .nan
    | .fin h => .ok (fin (m + h * 3600))
    | _ => .error .valueError

/-- The sunset hour angle (degrees), pvlib/solarposition.py:1516-1518. -/
def sunsetAngle (latitude declination : Fl) : Fl :=
  let latitude_rad := Fl.radians latitude
  Fl.degrees (Fl.arccos (-(Fl.tan declination) * Fl.tan latitude_rad))

/-- `sun_rise_set_transit_geometric`, pvlib/solarposition.py:1469-1530, one element:
(sunrise, sunset, transit). -/
def sunRiseSetTransitGeometric1 (z : Zone) (u : ℝ) (latitude longitude declination equation_of_time : Fl) :
    Except PyErr (Fl × Fl × Fl) :=
  let sunset_angle := sunsetAngle latitude declination
  let sunrise_angle := -sunset_angle
  let sunrise_hour := hourAngleToHours z u sunrise_angle longitude equation_of_time
  let sunset_hour := hourAngleToHours z u sunset_angle longitude equation_of_time
  let transit_hour := hourAngleToHours z u 0 longitude equation_of_time
  (localTimeFromHours z u sunrise_hour).bind fun sunrise =>
  (localTimeFromHours z u sunset_hour).bind fun sunset =>
  (localTimeFromHours z u transit_hour).bind fun transit =>
  .ok (sunrise, sunset, transit)

/-- `sun_rise_set_transit_geometric`, pvlib/solarposition.py:1469-1530: declination and equation of time
have one entry per time. -/
def sunRiseSetTransitGeometric (t : TimeIndex) (latitude longitude : Fl)
    (declination equation_of_time : List Fl) : Except PyErr (List (Fl × Fl × Fl)) :=
  match t.tz with
  | none => .error .valueError
  | some z =>
      mapErr (fun p : ℝ × Fl × Fl =>
          sunRiseSetTransitGeometric1 z p.1 latitude longitude p.2.1 p.2.2)
        (t.times.zip (declination.zip equation_of_time))

/-! ### `ephemeris` -/

/-- One element of `time_utc`, pvlib/solarposition.py:772-783 (NaN fields for NaT). -/
structure UtcTime where
  year : Fl
  dayofyear : Fl
  hour : Fl
  minute : Fl
  second : Fl
  microsecond : Fl

/-- `DecHours`, pvlib/solarposition.py:776-777. -/
def decHours (t : UtcTime) : Fl :=
  t.hour + t.minute / 60 + t.second / 3600 + t.microsecond / 3600e6

/-- `Ezero`: days since 1900 January 0.5 at 0h, pvlib/solarposition.py:783-786. -/
def eZero (t : UtcTime) : Fl :=
  let Yr := t.year - 1900
  let YrBegin := 365 * Yr + Fl.floor ((Yr - 1) / 4) - 0.5
  YrBegin + t.dayofyear

/-- `EpochDate`, pvlib/solarposition.py:798. -/
def epochDate (t : UtcTime) : Fl := eZero t + decHours t / 24

/-- `GMSTi`, pvlib/solarposition.py:787-793 (degrees). -/
def gmst (t : UtcTime) : Fl :=
  let T := eZero t / 36525
  let GMST0 : Fl := 6 / 24 + 38 / 1440 + (45.836 + 8640184.542 * T + 0.0929 * T ^ 2) / 86400
  let GMST0 := 360 * (GMST0 - Fl.floor GMST0)
  Fl.mod (GMST0 + 360 * (1.0027379093 * decHours t / 24)) 360

/-- `LocAST`, pvlib/solarposition.py:764, 796. -/
def locAST (t : UtcTime) (longitude : Fl) : Fl :=
  Fl.mod (360 + gmst t - (-1) * longitude) 360

/-- Orbital elements, pvlib/solarposition.py:799-807:
(ObliquityR, MlPerigee, MeanAnom, Eccen). -/
def orbit (t : UtcTime) : Fl × Fl × Fl × Fl :=
  let EpochDate := epochDate t
  let T1 := EpochDate / 36525
  let ObliquityR := Fl.radians (23.452294 - 0.0130125 * T1 - 1.64e-06 * T1 ^ 2 + 5.03e-07 * T1 ^ 3)
  let MlPerigee := 281.22083 + 4.70684e-05 * EpochDate + 0.000453 * T1 ^ 2 + 3e-06 * T1 ^ 3
  let MeanAnom := Fl.mod (358.47583 + 0.985600267 * EpochDate - 0.00015 * T1 ^ 2 - 3e-06 * T1 ^ 3) 360
  let Eccen := 0.01675104 - 4.18e-05 * T1 - 1.26e-07 * T1 ^ 2
  (ObliquityR, MlPerigee, MeanAnom, Eccen)

/-- The loop test `np.max(abs(EccenAnom - E)) > 0.0001`, pvlib/solarposition.py:811, on a non-empty array:
`np.max` is NaN when any element is, and then the test is false. -/
def keplerGoOn (E EccenAnom : List Fl) : Prop :=
  1e-4 < (List.zipWith (fun a e => Fl.abs (a - e)) EccenAnom E).foldl maximum ninf

/-- One element of the assignment in the loop, pvlib/solarposition.py:813. -/
def keplerStep (MeanAnom Eccen E : Fl) : Fl :=
  MeanAnom + Fl.degrees Eccen * Fl.sin (Fl.radians E)

/-- The `while` loop, pvlib/solarposition.py:811-813, over all elements together, allowed at most `fuel`
passes (`none`: not finished by then).  Elements are (MeanAnom, Eccen). -/
def keplerLoop (me : List (Fl × Fl)) : ℕ → List Fl → List Fl → Option (List Fl)
  | 0, E, EccenAnom => if keplerGoOn E EccenAnom then none else some EccenAnom
  | fuel + 1, E, EccenAnom =>
      if keplerGoOn E EccenAnom then
        keplerLoop me fuel EccenAnom (List.zipWith (fun p a => keplerStep p.1 p.2 a) me EccenAnom)
      else some EccenAnom

/-- `TrueAnom`, pvlib/solarposition.py:815-817. -/
def trueAnom (Eccen EccenAnom : Fl) : Fl :=
  2 * Fl.mod (Fl.degrees (Fl.arctan2
    (Fl.rpow ((1 + Eccen) / (1 - Eccen)) 0.5 * Fl.tan (Fl.radians EccenAnom / 2)) 1)) 360

/-- `EcLonR`, pvlib/solarposition.py:766, 818-819. -/
def eclipticLongitude (MlPerigee TrueAnom : Fl) : Fl :=
  Fl.radians (Fl.mod (MlPerigee + TrueAnom) 360 - 20 / 3600)

/-- `DecR`, pvlib/solarposition.py:820. -/
def ephemDec (ObliquityR EcLonR : Fl) : Fl := Fl.arcsin (Fl.sin ObliquityR * Fl.sin EcLonR)

/-- `RtAscen`, pvlib/solarposition.py:822-823 (degrees). -/
def ephemRtAscen (ObliquityR EcLonR : Fl) : Fl :=
  Fl.degrees (Fl.arctan2 (Fl.cos ObliquityR * Fl.sin EcLonR) (Fl.cos EcLonR))

/-- `HrAngle` after the wrap, pvlib/solarposition.py:825-827 (a numpy bool counts as 0 or 1). -/
def wrapHrAngle (HrAngle : Fl) : Fl :=
  HrAngle - 360 * (if 180 < Fl.abs HrAngle then (1 : Fl) else 0)

/-- `SunAz`, pvlib/solarposition.py:829-832 (degrees). -/
def ephemAzimuth (LatR DecR HrAngleR : Fl) : Fl :=
  let SunAz := Fl.degrees (Fl.arctan2 (-(Fl.sin HrAngleR))
    (Fl.cos LatR * Fl.tan DecR - Fl.sin LatR * Fl.cos HrAngleR))
  if SunAz < 0 then SunAz + 360 else SunAz

/-- `SunEl`, pvlib/solarposition.py:834-836 (degrees). -/
def ephemElevation (LatR DecR HrAngleR : Fl) : Fl :=
  Fl.degrees (Fl.arcsin (Fl.cos LatR * Fl.cos DecR * Fl.cos HrAngleR + Fl.sin LatR * Fl.sin DecR))

/-- The refraction correction, pvlib/solarposition.py:841-861 (degrees): masked assignments in order. -/
def ephemRefraction (Elevation pressure temperature : Fl) : Fl :=
  let TanEl := Fl.tan (Fl.radians Elevation)
  let Refract : Fl := 0
  let Refract := if 5 < Elevation ∧ Elevation ≤ 85 then
    58.1 / TanEl - 0.07 / TanEl ^ 3 + 8.6e-05 / TanEl ^ 5 else Refract
  let Refract := if -0.575 < Elevation ∧ Elevation ≤ 5 then
    Elevation * (-518.2 + Elevation * (103.4 + Elevation * (-12.79 + Elevation * 0.711))) + 1735
    else Refract
  let Refract := if -1 < Elevation ∧ Elevation ≤ -0.575 then -20.774 / TanEl else Refract
  Refract * ((283 / (273 + temperature)) * (pressure / 101325) / 3600)

/-- The output columns of `ephemeris`, pvlib/solarposition.py:866-876. -/
structure EphemOut where
  apparent_elevation : Fl
  elevation : Fl
  azimuth : Fl
  apparent_zenith : Fl
  zenith : Fl
  solar_time : Fl

/-- Everything after the Kepler loop, pvlib/solarposition.py:815-876, for one element. -/
def ephemFinish (t : UtcTime) (latitude longitude pressure temperature EccenAnom : Fl) : EphemOut :=
  let LatR := Fl.radians latitude
  let ObliquityR := (orbit t).1
  let MlPerigee := (orbit t).2.1
  let Eccen := (orbit t).2.2.2
  let TrueAnom := trueAnom Eccen EccenAnom
  let EcLonR := eclipticLongitude MlPerigee TrueAnom
  let DecR := ephemDec ObliquityR EcLonR
  let RtAscen := ephemRtAscen ObliquityR EcLonR
  let HrAngle := locAST t longitude - RtAscen
  let HrAngleR := Fl.radians HrAngle
  let HrAngle := wrapHrAngle HrAngle
  let SunAz := ephemAzimuth LatR DecR HrAngleR
  let SunEl := ephemElevation LatR DecR HrAngleR
  let SolarTime := (180 + HrAngle) / 15
  let ApparentSunEl := SunEl + ephemRefraction SunEl pressure temperature
  { apparent_elevation := ApparentSunEl, elevation := SunEl, azimuth := SunAz
    apparent_zenith := 90 - ApparentSunEl, zenith := 90 - SunEl, solar_time := SolarTime }

/-- `ephemeris`, pvlib/solarposition.py:696-878, on a list of UTC times (already converted by
`tools._pandas_to_utc`), with the loop allowed `fuel` passes.  `np.max` of an empty array raises
ValueError. -/
def ephemeris (fuel : ℕ) (times : List UtcTime) (latitude longitude : Fl) (pressure : Fl := 101325)
    (temperature : Fl := 12) : Except PyErr (Option (List EphemOut)) :=
  if times = [] then .error .valueError
  else
    let me := times.map fun t => ((orbit t).2.2.1, (orbit t).2.2.2)
    match keplerLoop me fuel (times.map fun _ => 0) (me.map Prod.fst) with
    | none => .ok none
    | some ecc => .ok (some (List.zipWith
        (fun t e => ephemFinish t latitude longitude pressure temperature e) times ecc))

end Pvlib.SolarPosition
end
