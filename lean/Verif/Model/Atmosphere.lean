import Verif.Model.Tools

/-! # Model of `pvlib/atmosphere.py` -/

noncomputable section
open scoped Classical
namespace Pvlib.Atmosphere
open Fl

/-- `APPARENT_ZENITH_MODELS`, pvlib/atmosphere.py:10-11. -/
def apparentZenithModels : List String :=
  ["simple", "kasten1966", "kastenyoung1989", "gueymard1993", "pickering2002"]
/-- `TRUE_ZENITH_MODELS`, pvlib/atmosphere.py:12. -/
def trueZenithModels : List String := ["youngirvine1967", "young1994"]

/-- `pres2alt`, pvlib/atmosphere.py:16-53. -/
def pres2alt (pressure : Fl) : Fl := 44331.5 - 4946.62 * rpow pressure 0.190263

/-- `alt2pres`, pvlib/atmosphere.py:56-93. -/
def alt2pres (altitude : Fl) : Fl :=
  100 * rpow ((44331.514 - altitude) / 11880.516) (1 / 0.1902632)

/-- `get_absolute_airmass`, pvlib/atmosphere.py:96-131. -/
def absoluteAirmass (airmass_relative : Fl) (pressure : Fl := 101325) : Fl :=
  airmass_relative * pressure / 101325

/-- The airmass formulas of `get_relative_airmass`, pvlib/atmosphere.py:229-255, applied to `z`
(already NaN above 90 degrees); `none` is the final `else` (ValueError). -/
def airmassFormula (model : String) (z : Fl) : Option Fl :=
  let zenith_rad := radians z
  if model = "kastenyoung1989" then
    some (1 / (Fl.cos zenith_rad + 0.50572 * rpow (6.07995 + (90 - z)) (-1.6364)))
  else if model = "kasten1966" then
    some (1 / (Fl.cos zenith_rad + 0.15 * rpow (93.885 - z) (-1.253)))
  else if model = "simple" then
    some (1 / Fl.cos zenith_rad)
  else if model = "pickering2002" then
    some (1 / Fl.sin (radians (90 - z + 244 / (165 + 47 * rpow (90 - z) 1.1))))
  else if model = "youngirvine1967" then
    let sec_zen := 1 / Fl.cos zenith_rad
    some (sec_zen * (1 - 0.0012 * (sec_zen * sec_zen - 1)))
  else if model = "young1994" then
    let c := Fl.cos zenith_rad
    some ((1.002432 * c ^ 2 + 0.148386 * c + 0.0096467) /
      (c ^ 3 + 0.149864 * c ^ 2 + 0.0102963 * c + 0.000303978))
  else if model = "gueymard1993" then
    some (1 / (Fl.cos zenith_rad + 0.00176759 * z * rpow (94.37515 - z) (-1.21563)))
  else if model = "gueymard2003" then
    some (1 / (Fl.cos zenith_rad + 0.48353 * rpow z 0.095846 / rpow (96.741 - z) 1.754))
  else none

/-- `get_relative_airmass`, pvlib/atmosphere.py:134-260 (per element). -/
def relativeAirmass (zenith : Fl) (model : String := "kastenyoung1989") : Except PyErr Fl :=
  let z := npwhere (90 < zenith) nan zenith
  match airmassFormula (pyLower model) z with
  | some am => .ok am
  | none => .error .valueError

/-- `get_relative_airmass(zenith, 'kastenyoung1989')` (pvlib/atmosphere.py:224-231), the value the
irradiance functions use; it cannot raise. -/
def kastenyoung (zenith : Fl) : Fl :=
  let z := npwhere (90 < zenith) nan zenith
  1 / (Fl.cos (radians z) + 0.50572 * rpow (6.07995 + (90 - z)) (-1.6364))

/-- `get_relative_airmass(zenith, 'kasten1966')` (pvlib/atmosphere.py:224-233). -/
def kasten1966 (zenith : Fl) : Fl :=
  let z := npwhere (90 < zenith) nan zenith
  1 / (Fl.cos (radians z) + 0.15 * rpow (93.885 - z) (-1.253))

/-- `get_relative_airmass(zenith, 'simple')` (pvlib/atmosphere.py:224-235). -/
def simpleAirmass (zenith : Fl) : Fl :=
  let z := npwhere (90 < zenith) nan zenith
  1 / Fl.cos (radians z)

/-- `gueymard94_pw`, pvlib/atmosphere.py:263-343. -/
def gueymard94Pw (temp_air relative_humidity : Fl) : Fl :=
  let T := temp_air + 273.15
  let RH := relative_humidity
  let theta := T / 273.15
  let pw := 0.1 * (0.4976 + 1.5265 * theta + Fl.exp (13.6897 * theta - 14.9188 * theta ^ 3)) *
    (216.7 * RH / (100 * T) * Fl.exp (22.330 - 49.140 * (100 / T) - 10.922 * (100 / T) ^ 2
      - 0.39015 * T / 100))
  maximum pw 0.1

/-- `rh_from_tdew`, pvlib/atmosphere.py:346-395. -/
def rhFromTdew (temp_air temp_dew : Fl) (c0 c1 c2 : Fl) : Fl :=
  let e := c0 * Fl.exp ((c1 * temp_dew) / (c2 + temp_dew))
  let es := c0 * Fl.exp ((c1 * temp_air) / (c2 + temp_air))
  100 * (e / es)

/-- `tdew_from_rh`, pvlib/atmosphere.py:398-434. -/
def tdewFromRh (temp_air relative_humidity : Fl) (_c0 c1 c2 : Fl) : Fl :=
  let ln_term := (c1 * temp_air) / (c2 + temp_air) + Fl.log (relative_humidity / 100)
  c2 * ln_term / (c1 - ln_term)

/-- `bird_hulstrom80_aod_bb`, pvlib/atmosphere.py:437-471. -/
def birdHulstrom80 (aod380 aod500 : Fl) : Fl := 0.27583 * aod380 + 0.35 * aod500

/-- `kasten96_lt`, pvlib/atmosphere.py:474-559. -/
def kasten96Lt (airmass_absolute precipitable_water aod_bb : Fl) : Fl :=
  let delta_cda := -0.101 + 0.235 * rpow airmass_absolute (-0.16)
  let delta_w := 0.112 * rpow airmass_absolute (-0.55) * rpow precipitable_water 0.34
  let delta_a := aod_bb
  let lt := -(9.4 + 0.9 * airmass_absolute) *
    Fl.log (Fl.exp (-airmass_absolute * (delta_cda + delta_w + delta_a))) / airmass_absolute
  lt

/-- `angstrom_aod_at_lambda`, pvlib/atmosphere.py:562-599. -/
def angstromAod (aod0 lambda0 : Fl) (alpha : Fl := 1.14) (lambda1 : Fl := 700) : Fl :=
  aod0 * rpow (lambda1 / lambda0) (-alpha)

/-- `angstrom_alpha`, pvlib/atmosphere.py:602-627. -/
def angstromAlpha (aod1 lambda1 aod2 lambda2 : Fl) : Fl :=
  -Fl.log (aod1 / aod2) / Fl.log (lambda1 / lambda2)

/-- `HELLMANN_SURFACE_EXPONENTS`, pvlib/atmosphere.py:631-641. -/
def hellmann : List (String × Fl) :=
  [("unstable_air_above_open_water_surface", 0.06),
   ("neutral_air_above_open_water_surface", 0.10),
   ("stable_air_above_open_water_surface", 0.27),
   ("unstable_air_above_flat_open_coast", 0.11),
   ("neutral_air_above_flat_open_coast", 0.16),
   ("stable_air_above_flat_open_coast", 0.40),
   ("unstable_air_above_human_inhabited_areas", 0.27),
   ("neutral_air_above_human_inhabited_areas", 0.34),
   ("stable_air_above_human_inhabited_areas", 0.60)]

/-- `windspeed_powerlaw`, pvlib/atmosphere.py:644-782.  Python returns a complex number for a
negative base and the code maps it to NaN; `rpow` gives NaN directly. -/
def windspeedPowerlaw (wind_speed_reference height_reference height_desired : Fl)
    (exponent : Option Fl) (surface_type : Option String) : Except PyErr Fl :=
  let go (e : Fl) : Fl :=
    let wind_speed := wind_speed_reference * rpow (height_desired / height_reference) e
    npwhere (wind_speed < 0) nan wind_speed
  match surface_type, exponent with
  | some s, none =>
      match hellmann.lookup s with
      | some e => .ok (go e)
      | none => .error (.keyError s)
  | none, some e => .ok (go e)
  | _, _ => .error .valueError

end Pvlib.Atmosphere
end
