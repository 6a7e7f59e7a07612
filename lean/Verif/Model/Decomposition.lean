import Verif.Model.Irradiance
import Verif.Model.DirintTable
import Verif.Base.Series

/-! # Model of `pvlib/irradiance.py`: extraterrestrial radiation, clearness indices, decomposition -/

noncomputable section
open scoped Classical
open Real
namespace Pvlib.Irradiance
open Fl Pvlib.Tools

/-- `solarposition._calculate_simple_day_angle`, pvlib/solarposition.py:1037-1051. -/
def simpleDayAngle (dayofyear : Fl) (offset : Fl := 1) : Fl :=
  fin (2 * π / 365) * (dayofyear - offset)

/-- `get_extra_radiation`, pvlib/irradiance.py:33-123, on a day of year.  The `pyephem` and `nrel`
methods need an earth-sun distance computed elsewhere: it is the parameter `distance`.  The
conversions between date types (`_handle_extra_radiation_types`) are in Model/Times.lean. -/
def getExtraRadiation (doy : Fl) (solar_constant : Fl := 1366.1) (method : String := "spencer")
    (distance : Fl := 1) : Except PyErr Fl :=
  let method := pyLower method
  if method = "asce" then
    let B := simpleDayAngle doy 0
    .ok (solar_constant * (1 + 0.033 * Fl.cos B))
  else if method = "spencer" then
    let B := simpleDayAngle doy
    .ok (solar_constant * (1.00011 + 0.034221 * Fl.cos B + 0.00128 * Fl.sin B +
      0.000719 * Fl.cos (2 * B) + 7.7e-05 * Fl.sin (2 * B)))
  else if method = "pyephem" ∨ method = "nrel" then
    .ok (solar_constant * (1 / distance ^ 2))
  else .error .valueError

/-- `get_extra_radiation(doy, solar_constant, 'spencer')` (pvlib/irradiance.py:105-121), the form the
decomposition models use; it cannot raise. -/
def extraSpencer (doy solar_constant : Fl) : Fl :=
  let B := simpleDayAngle doy
  solar_constant * (1.00011 + 0.034221 * Fl.cos B + 0.00128 * Fl.sin B +
    0.000719 * Fl.cos (2 * B) + 7.7e-05 * Fl.sin (2 * B))

/-- `clearsky_index`, pvlib/irradiance.py:1764-1806. -/
def clearskyIndex (ghi ghi_clear : Fl) (max_clearsky_index : Fl := 2) : Fl :=
  let k := ghi / ghi_clear
  let k := npwhere (¬ isfinite k) 0 k
  let input_is_nan := ¬ isfinite ghi ∨ ¬ isfinite ghi_clear
  let k := npwhere input_is_nan nan k
  let k := maximum k 0
  minimum k max_clearsky_index

/-- `clearness_index`, pvlib/irradiance.py:1809-1859. -/
def clearnessIndex (ghi solar_zenith extra_radiation : Fl) (min_cos_zenith : Fl := 0.065)
    (max_clearness_index : Fl := 2) : Fl :=
  let cos_zenith := cosd solar_zenith
  let I0h := extra_radiation * maximum cos_zenith min_cos_zenith
  let kt := ghi / I0h
  let kt := maximum kt 0
  minimum kt max_clearness_index

/-- `_kt_kt_prime_factor`, pvlib/irradiance.py:1901-1908. -/
def ktKtPrimeFactor (airmass : Fl) : Fl := 1.031 * Fl.exp (-1.4 / (0.9 + 9.4 / airmass)) + 0.1

/-- `clearness_index_zenith_independent`, pvlib/irradiance.py:1862-1898. -/
def clearnessIndexZenithIndependent (clearness_index airmass : Fl) (max_clearness_index : Fl := 2) : Fl :=
  let kt_prime := clearness_index / ktKtPrimeFactor airmass
  let kt_prime := maximum kt_prime 0
  minimum kt_prime max_clearness_index

/-! ### The Erbs family -/

/-- A decomposition result: `dni`, `dhi` and `kt`. (Used for pvlib/irradiance.py:2739-2834.) -/
structure Decomp where
  (dni dhi kt : Fl)

/-- The common end of `erbs`, `erbs_driesse`, `orgill_hollands` and `boland`, pvlib/irradiance.py:
2818-2829, 2955-2966, 3053-3064, 3164-3175, given the diffuse fraction `df`. (Used for pvlib/irradiance.py:2739-2834.) -/
def finishDf (ghi zenith max_zenith kt df : Fl) : Decomp :=
  let dhi := df * ghi
  let dni := (ghi - dhi) / cosd zenith
  let bad_values := max_zenith < zenith ∨ ghi < 0 ∨ dni < 0
  ⟨npwhere bad_values 0 dni, npwhere bad_values ghi dhi, kt⟩

/-- The diffuse fraction of `erbs`, pvlib/irradiance.py:2806-2816. -/
def erbsDf (kt : Fl) : Fl :=
  let df := 1 - 0.09 * kt
  let df := npwhere (0.22 < kt ∧ kt ≤ 0.8)
    (0.9511 - 0.1604 * kt + 4.388 * kt ^ 2 - 16.638 * kt ^ 3 + 12.336 * kt ^ 4) df
  npwhere (0.8 < kt) 0.165 df

/-- `erbs`, pvlib/irradiance.py:2739-2834, on a day of year. -/
def erbs (ghi zenith doy : Fl) (min_cos_zenith : Fl := 0.065) (max_zenith : Fl := 87) : Decomp :=
  let dni_extra := extraSpencer doy 1366.1
  let kt := clearnessIndex ghi zenith dni_extra min_cos_zenith 1
  finishDf ghi zenith max_zenith kt (erbsDf kt)

/-- `np.polyval(p, x)`: Horner's rule from 0. (Used for pvlib/irradiance.py:2926-2931.) -/
def polyval (p : List Fl) (x : Fl) : Fl := p.foldl (fun y c => y * x + c) 0

/-- The diffuse fraction of `erbs_driesse`, pvlib/irradiance.py:2926-2931, 2946-2953. -/
def erbsDriesseDf (kt : Fl) : Fl :=
  let p : List Fl := [12.26911439571261000, -16.47050842469730700, 4.24692671521831700,
    -0.11390583806313881, 0.94629663357100100]
  let df := 1 - 0.09 * kt
  let df := npwhere (0.216 < kt) (polyval p kt) df
  npwhere (0.792 < kt) 0.165 df

/-- `erbs_driesse`, pvlib/irradiance.py:2837-2973, once the extraterrestrial radiation is known. -/
def erbsDriesseExtra (ghi zenith dni_extra min_cos_zenith max_zenith : Fl) : Decomp :=
  let ghi := maximum 0 ghi
  let kt := clearnessIndex ghi zenith dni_extra min_cos_zenith 1
  finishDf ghi zenith max_zenith kt (erbsDriesseDf kt)

/-- `erbs_driesse`, pvlib/irradiance.py:2837-2973. -/
def erbsDriesse (ghi zenith : Fl) (doy dni_extra : Option Fl) (min_cos_zenith : Fl := 0.065)
    (max_zenith : Fl := 87) : Except PyErr Decomp :=
  match doy, dni_extra with
  | none, none => .error .valueError
  | _, some e => .ok (erbsDriesseExtra ghi zenith e min_cos_zenith max_zenith)
  | some d, none => .ok (erbsDriesseExtra ghi zenith (extraSpencer d 1366.1) min_cos_zenith max_zenith)

/-- The diffuse fraction of `orgill_hollands`, pvlib/irradiance.py:3043-3051. -/
def orgillHollandsDf (kt : Fl) : Fl :=
  let df := 1 - 0.249 * kt
  let df := npwhere (0.35 ≤ kt ∧ kt ≤ 0.75) (1.557 - 1.84 * kt) df
  npwhere (0.75 < kt) 0.177 df

/-- `orgill_hollands`, pvlib/irradiance.py:2976-3069. -/
def orgillHollands (ghi zenith doy : Fl) (dni_extra : Option Fl := none) (min_cos_zenith : Fl := 0.065)
    (max_zenith : Fl := 87) : Decomp :=
  let dni_extra := match dni_extra with
    | some e => e
    | none => extraSpencer doy 1366.1
  let kt := clearnessIndex ghi zenith dni_extra min_cos_zenith 1
  finishDf ghi zenith max_zenith kt (orgillHollandsDf kt)

/-- `boland`, pvlib/irradiance.py:3072-3180. -/
def boland (ghi solar_zenith doy : Fl) (a_coeff : Fl := 8.645) (b_coeff : Fl := 0.613)
    (min_cos_zenith : Fl := 0.065) (max_zenith : Fl := 87) : Decomp :=
  let dni_extra := extraSpencer doy 1366.1
  let kt := clearnessIndex ghi solar_zenith dni_extra min_cos_zenith 1
  let df := 1 / (1 + Fl.exp (a_coeff * (kt - b_coeff)))
  finishDf ghi solar_zenith max_zenith kt df

/-- `louche`, pvlib/irradiance.py:3944-4003. -/
def louche (ghi solar_zenith doy : Fl) (max_zenith : Fl := 90) : Decomp :=
  let I0 := extraSpencer doy 1366.1
  let Kt := clearnessIndex ghi solar_zenith I0
  let kb := -10.627 * Kt ^ 5 + 15.307 * Kt ^ 4 - 5.205 * Kt ^ 3 + 0.994 * Kt ^ 2 - 0.059 * Kt + 0.002
  let dni := kb * I0
  let dhi := ghi - dni * cosd solar_zenith
  let bad_values := max_zenith < solar_zenith ∨ ghi < 0 ∨ dni < 0
  ⟨npwhere bad_values 0 dni, npwhere bad_values ghi dhi, Kt⟩

/-! ### DISC and DIRINT -/

/-- `_disc_kn`, pvlib/irradiance.py:2014-2057: `(Kn, am)`. -/
def discKn (clearness_index airmass : Fl) (max_airmass : Fl := 12) : Fl × Fl :=
  let kt := clearness_index
  let am := minimum airmass max_airmass
  let is_cloudy := kt ≤ 0.6
  let a := npwhere is_cloudy (0.512 + kt * (-1.56 + kt * (2.286 - 2.222 * kt)))
    (-5.743 + kt * (21.77 + kt * (-27.49 + 11.56 * kt)))
  let b := npwhere is_cloudy (0.37 + 0.962 * kt) (41.4 + kt * (-118.5 + kt * (66.05 + 31.9 * kt)))
  let c := npwhere is_cloudy (-0.28 + kt * (0.932 - 2.048 * kt))
    (-47.01 + kt * (184.2 + kt * (-222 + 73.81 * kt)))
  let delta_kn := a + b * Fl.exp (c * am)
  let Knc := 0.866 + am * (-0.122 + am * (0.0121 + am * (-0.000653 + 1.4e-05 * am)))
  (Knc - delta_kn, am)

/-- Result of `disc`. (Used for pvlib/irradiance.py:1911-2011.) -/
structure Disc where
  (dni kt airmass : Fl)

/-- `disc`, pvlib/irradiance.py:1911-2011 (`pressure=None`: relative airmass is used). -/
def disc (ghi solar_zenith doy : Fl) (pressure : Option Fl := some 101325) (min_cos_zenith : Fl := 0.065)
    (max_zenith : Fl := 87) (max_airmass : Fl := 12) : Disc :=
  let I0 := extraSpencer doy 1370
  let kt := clearnessIndex ghi solar_zenith I0 min_cos_zenith 1
  let am := Atmosphere.kasten1966 solar_zenith
  let am := match pressure with
    | some p => Atmosphere.absoluteAirmass am p
    | none => am
  let (Kn, am) := discKn kt am max_airmass
  let dni := Kn * I0
  let bad_values := max_zenith < solar_zenith ∨ ghi < 0 ∨ dni < 0
  ⟨npwhere bad_values 0 dni, kt, am⟩

/-- `kt_prime_bin` of `_dirint_bins`, pvlib/irradiance.py:2263-2269 (masked assignments in order; 0 =
unassigned). -/
def ktPrimeBin (k : Fl) : ℕ :=
  let b := 0
  let b := if 0 ≤ k ∧ k < 0.24 then 1 else b
  let b := if 0.24 ≤ k ∧ k < 0.4 then 2 else b
  let b := if 0.4 ≤ k ∧ k < 0.56 then 3 else b
  let b := if 0.56 ≤ k ∧ k < 0.7 then 4 else b
  let b := if 0.7 ≤ k ∧ k < 0.8 then 5 else b
  if 0.8 ≤ k ∧ k ≤ 1 then 6 else b

/-- `zenith_bin`, pvlib/irradiance.py:2272-2278. -/
def zenithBin (z : Fl) : ℕ :=
  let b := 0
  let b := if 0 ≤ z ∧ z < 25 then 1 else b
  let b := if 25 ≤ z ∧ z < 40 then 2 else b
  let b := if 40 ≤ z ∧ z < 55 then 3 else b
  let b := if 55 ≤ z ∧ z < 70 then 4 else b
  let b := if 70 ≤ z ∧ z < 80 then 5 else b
  if 80 ≤ z then 6 else b

/-- `w_bin`, pvlib/irradiance.py:2281-2286. -/
def wBin (w : Fl) : ℕ :=
  let b := 0
  let b := if 0 ≤ w ∧ w < 1 then 1 else b
  let b := if 1 ≤ w ∧ w < 2 then 2 else b
  let b := if 2 ≤ w ∧ w < 3 then 3 else b
  let b := if 3 ≤ w then 4 else b
  if eqv w (-1) then 5 else b

/-- `delta_kt_prime_bin`, pvlib/irradiance.py:2289-2297. -/
def deltaBin (d : Fl) : ℕ :=
  let b := 0
  let b := if 0 ≤ d ∧ d < 0.015 then 1 else b
  let b := if 0.015 ≤ d ∧ d < 0.035 then 2 else b
  let b := if 0.035 ≤ d ∧ d < 0.07 then 3 else b
  let b := if 0.07 ≤ d ∧ d < 0.15 then 4 else b
  let b := if 0.15 ≤ d ∧ d < 0.3 then 5 else b
  let b := if 0.3 ≤ d ∧ d ≤ 1 then 6 else b
  if eqv d (-1) then 7 else b

/-- numpy indexing with `bin - 1` along an axis of length `n` (`-1` is the last element). (Used for pvlib/irradiance.py:2206-2239.) -/
def npIndex (n bin : ℕ) : ℕ := if bin = 0 then n - 1 else bin - 1

/-- `_get_dirint_coeffs()[i, j, k, l]` for in-range indices. (Used for pvlib/irradiance.py:2206-2239.) -/
def dirintTable (i j k l : ℕ) : ℝ :=
  ((((dirintTableMicro.getD i []).getD j []).getD k []).getD l 0 : ℕ) / 1000000

/-- `_dirint_coeffs`, pvlib/irradiance.py:2206-2239. -/
def dirintCoeffs (kt_prime solar_zenith w delta_kt_prime : Fl) : Fl :=
  let kt_prime_bin := ktPrimeBin kt_prime
  let zenith_bin := zenithBin solar_zenith
  let w_bin := wBin w
  let delta_kt_prime_bin := deltaBin delta_kt_prime
  let c := fin (dirintTable (npIndex 6 kt_prime_bin) (npIndex 6 zenith_bin)
    (npIndex 7 delta_kt_prime_bin) (npIndex 5 w_bin))
  npwhere (kt_prime_bin = 0 ∨ zenith_bin = 0 ∨ w_bin = 0 ∨ delta_kt_prime_bin = 0) nan c

/-- Row-wise mean of two columns, NaN skipped (pandas `mean(axis=1)`). (Used for pvlib/irradiance.py:2171-2189.) -/
def nanmean2 (x y : Fl) : Fl :=
  if x = nan then y else if y = nan then x else (x + y) / 2

/-- `_delta_kt_prime_dirint`, pvlib/irradiance.py:2171-2189, on a Series of length `n`. -/
def deltaKtPrime (n : ℕ) (kt_prime : Series) (use_delta_kt_prime : Bool) : Series := fun i =>
  if use_delta_kt_prime then
    let kt_next := if i + 1 < n then kt_prime (i + 1) else nan
    let kt_previous := if i = 0 then nan else kt_prime (i - 1)
    nanmean2 (Fl.abs (kt_prime i - kt_next)) (Fl.abs (kt_prime i - kt_previous))
  else -1

/-- `_temp_dew_dirint`, pvlib/irradiance.py:2192-2203. -/
def tempDewW (temp_dew : Option Series) : Series := fun i =>
  match temp_dew with
  | some t => Fl.exp (0.07 * t i - 0.075)
  | none => -1

/-- `dirint`, pvlib/irradiance.py:2060-2151, on Series of length `n`. -/
def dirint (n : ℕ) (ghi solar_zenith doy : Series) (pressure : Option Fl := some 101325)
    (use_delta_kt_prime : Bool := true) (temp_dew : Option Series := none)
    (min_cos_zenith : Fl := 0.065) (max_zenith : Fl := 87) : Series := fun i =>
  let disc_out : ℕ → Disc := fun i => disc (ghi i) (solar_zenith i) (doy i) pressure min_cos_zenith max_zenith
  let kt_prime : Series := fun i =>
    clearnessIndexZenithIndependent (disc_out i).kt (disc_out i).airmass 1
  let delta_kt_prime := deltaKtPrime n kt_prime use_delta_kt_prime
  let w := tempDewW temp_dew
  (disc_out i).dni * dirintCoeffs (kt_prime i) (solar_zenith i) (w i) (delta_kt_prime i)

/-! ### Component completion -/

/-- `dni`, pvlib/irradiance.py:3798-3869 (per element). -/
def dniFrom (ghi dhi zenith : Fl) (dni_clear : Option Fl) (clearsky_tolerance : Fl := 1.1)
    (zenith_threshold_for_zero_dni : Fl := 88) (zenith_threshold_for_clearsky_limit : Fl := 80) : Fl :=
  let dni := (ghi - dhi) / cosd zenith
  let dni := if dni < 0 then nan else dni
  let dni := if zenith_threshold_for_zero_dni ≤ zenith ∧ ¬ eqv dni 0 then nan else dni
  match dni_clear with
  | some c =>
      let max_dni := c * clearsky_tolerance
      if zenith_threshold_for_clearsky_limit ≤ zenith ∧ zenith < zenith_threshold_for_zero_dni
        ∧ max_dni < dni then max_dni else dni
  | none => dni

/-- The DataFrame row returned by `complete_irradiance`. (Used for pvlib/irradiance.py:3872-3941.) -/
structure Components where
  (ghi dhi dni : Fl)

/-- `complete_irradiance`, pvlib/irradiance.py:3872-3941 (per row). -/
def completeIrradiance (solar_zenith : Fl) (ghi dhi dni : Option Fl) (dni_clear : Option Fl) :
    Except PyErr Components :=
  match ghi, dhi, dni with
  | some g, some d, none => .ok ⟨g, d, dniFrom g d solar_zenith dni_clear⟩
  | none, some d, some n => .ok ⟨d + n * cosd solar_zenith, d, n⟩
  | some g, none, some n => .ok ⟨g, g - n * cosd solar_zenith, n⟩
  | _, _, _ => .error .valueError

/-! ### Simple transmittance models -/

/-- `_liujordan`, pvlib/irradiance.py:3237-3292. -/
def liujordan (zenith transmittance airmass dni_extra : Fl) : Components :=
  let dni := dni_extra * rpow transmittance airmass
  let dhi := 0.3 * (1 - rpow transmittance airmass) * dni_extra * Fl.cos (radians zenith)
  let ghi := dhi + dni * Fl.cos (radians zenith)
  ⟨ghi, dhi, dni⟩

/-- `campbell_norman`, pvlib/irradiance.py:3183-3234. -/
def campbellNorman (zenith transmittance : Fl) (pressure : Fl := 101325) (dni_extra : Fl := 1367) :
    Components :=
  let airmass := Atmosphere.absoluteAirmass (Atmosphere.simpleAirmass zenith) pressure
  let dni := dni_extra * rpow transmittance airmass
  let cos_zen := cosd zenith
  let dhi := 0.3 * (1 - rpow transmittance airmass) * dni_extra * cos_zen
  let ghi := dhi + dni * cos_zen
  ⟨ghi, dhi, dni⟩

/-- `diffuse_par_spitters`, pvlib/irradiance.py:4006-4076. -/
def diffuseParSpitters (daily_solar_zenith global_diffuse_fraction : Fl) : Fl :=
  let cosd_solar_zenith := cosd daily_solar_zenith
  let cosd_solar_elevation := sind daily_solar_zenith
  (1 + 0.3 * (1 - global_diffuse_fraction ^ 2)) * global_diffuse_fraction /
    (1 + (1 - global_diffuse_fraction ^ 2) * cosd_solar_zenith ^ 2 * cosd_solar_elevation ^ 3)

/-! ### GTI-DIRINT, AOI < 90 -/

/-- What one pass of the loop body of `_gti_dirint_lt_90` computes from `poa_global_i`
(pvlib/irradiance.py:2590-2616): the decomposition and the modelled `poa_global`. -/
structure GtiIter where
  (ghi dni dhi kt_prime gti_model : Series)

/-- The state of the loop. `best` is `none` before the first pass (the Python names are unbound). (Used for pvlib/irradiance.py:2590-2644.) -/
structure GtiState where
  poa_global_i : Series
  best_diff : Series
  best : Option (Series × Series × Series × Series)

/-- `coeffs[:max_iterations]`, pvlib/irradiance.py:2565-2570. -/
def gtiCoeffs (max_iterations : ℕ) : List Fl :=
  (List.range max_iterations).map fun k =>
    if k < 3 then 1 else if k < 10 then 0.5 else if k < 20 then 0.25 else 0.125

/-- One pass of the loop after the break test, pvlib/irradiance.py:2590-2644, for an arbitrary model
`step` of the numerical content of the pass. -/
def gtiPass (step : Series → GtiIter) (poa_global : Series) (coeff : Fl) (s : GtiState) : GtiState :=
  let r := step s.poa_global_i
  let diff : Series := fun p => r.gti_model p - poa_global p
  let diff_abs : Series := fun p => Fl.abs (diff p)
  let smallest_diff : ℕ → Prop := fun p => diff_abs p < s.best_diff p
  let best_diff : Series := fun p => if smallest_diff p then diff_abs p else s.best_diff p
  let best := match s.best with
    | none => (r.ghi, r.dni, r.dhi, r.kt_prime)
    | some (g, d, h, k) =>
      ((fun p => if smallest_diff p then r.ghi p else g p),
       (fun p => if smallest_diff p then r.dni p else d p),
       (fun p => if smallest_diff p then r.dhi p else h p),
       (fun p => if smallest_diff p then r.kt_prime p else k p))
  ⟨fun p => maximum 1 (s.poa_global_i p - coeff * diff p), best_diff, some best⟩

/-- The loop, pvlib/irradiance.py:2579-2655, on `n` points: stop as soon as every point with
`aoi < 90` has `best_diff ≤ 1`, or when the coefficients run out.  Returns the final state and the
list of results of the passes performed (latest first), which is a ghost output. -/
def gtiLoop (n : ℕ) (step : Series → GtiIter) (poa_global : Series) (aoi_lt_90 : ℕ → Prop) :
    List Fl → GtiState → List GtiIter → GtiState × List GtiIter
  | [], s, hist => (s, hist)
  | coeff :: rest, s, hist =>
      if ∀ p < n, aoi_lt_90 p → s.best_diff p ≤ 1 then (s, hist)
      else gtiLoop n step poa_global aoi_lt_90 rest (gtiPass step poa_global coeff s)
        (step s.poa_global_i :: hist)

/-- `_gti_dirint_lt_90`, pvlib/irradiance.py:2541-2655: the best data and (ghost) the passes. -/
def gtiDirintLt90 (n : ℕ) (step : Series → GtiIter) (poa_global : Series) (aoi_lt_90 : ℕ → Prop)
    (max_iterations : ℕ) :
    Except PyErr ((Series × Series × Series × Series) × List GtiIter) :=
  let (s, hist) := gtiLoop n step poa_global aoi_lt_90 (gtiCoeffs max_iterations)
    ⟨poa_global, fun _ => 9999, none⟩ []
  match s.best with
  | some b => .ok (b, hist)
  | none => .error .unboundLocal

end Pvlib.Irradiance
end
