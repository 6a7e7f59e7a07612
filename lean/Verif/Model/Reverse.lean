import Verif.Model.Decomposition

/-! # Model of `pvlib/irradiance.py`: reverse transposition, DIRINDEX and GTI-DIRINT as a whole -/

noncomputable section
open scoped Classical
open Real
namespace Pvlib.Irradiance
open Fl Pvlib.Tools

/-! ### Reverse transposition (Driesse 2024) -/

/-- `_poa_from_ghi`, pvlib/irradiance.py:1576-1599.  `erbs_driesse` is given `dni_extra`, and
`get_total_irradiance` the model 'perez-driesse', so neither can raise (`poaFromGhi_is_total`); the
unreachable error cases are mapped to NaN here. -/
def poaFromGhi (surface_tilt surface_azimuth solar_zenith solar_azimuth ghi dni_extra : Fl)
    (airmass : Option Fl) (albedo : Fl) : Fl :=
  match erbsDriesse ghi solar_zenith none (some dni_extra) with
  | .error _ => nan
  | .ok erbsout =>
    let dni := erbsout.dni
    let dhi := erbsout.dhi
    match getTotalIrradiance (fun _ => none) pdF surface_tilt surface_azimuth solar_zenith solar_azimuth
      dni ghi dhi (some dni_extra) airmass albedo none "perez-driesse" "allsitescomposite1990" false with
    | .error _ => nan
    | .ok irrads => irrads.poa_global

/-- The loop of `scipy.optimize.bisect` (third-party, called at pvlib/irradiance.py:1633; transcribed from
its C source): halve, keep the half whose left end has the sign of `f(a)`, stop on a zero or when the half
width is below `xtol + rtol |x|`.  Result: root estimate, converged, iterations.  A NaN function value raises
`ValueError`. -/
def bisectLoop (f : Fl → Fl) (negA : Prop) (xtol rtol : Fl) : ℕ → ℤ → Fl → Fl → Except PyErr (Fl × Bool × ℤ)
  | 0, iterations, xa, _ => .ok (xa, false, iterations)
  | fuel + 1, iterations, xa, dm =>
      let iterations := iterations + 1
      let dm := dm * 0.5
      let xm := xa + dm
      let fm := f xm
      if isnan fm then .error .valueError else
      let xa := if (fm < 0) = negA then xm else xa
      if eqv fm 0 ∨ Fl.abs dm < xtol + rtol * Fl.abs xm then .ok (xm, true, iterations)
      else bisectLoop f negA xtol rtol fuel iterations xa dm

/-- `scipy.optimize.bisect(f, a, b, xtol, rtol, maxiter, full_output=True, disp=False)` (third-party, called at
pvlib/irradiance.py:1633-1640). -/
def bisect (f : Fl → Fl) (a b xtol rtol : Fl) (maxiter : ℕ) : Except PyErr (Fl × Bool × ℤ) :=
  let fa := f a
  let fb := f b
  if isnan fa ∨ isnan fb then .error .valueError
  else if eqv fa 0 then .ok (a, true, 0)
  else if eqv fb 0 then .ok (b, true, 0)
  else if (fa < 0) = (fb < 0) then .error .valueError
  else bisectLoop f (fa < 0) xtol rtol maxiter 0 a (b - a)

/-- The default `rtol` of `scipy.optimize.bisect`: four machine epsilons. (Used for pvlib/irradiance.py:1602-1651.) -/
def bisectRtol : Fl := fin (4 * (2 : ℝ) ^ (-52 : ℤ))

/-- `_ghi_from_poa`, pvlib/irradiance.py:1602-1651: `(ghi, converged, iterations)`. -/
def ghiFromPoa1 (surface_tilt surface_azimuth solar_zenith solar_azimuth poa_global dni_extra : Fl)
    (airmass : Option Fl) (albedo : Fl) (xtol : Fl := 0.01) : Fl × Bool × ℤ :=
  if isnan poa_global then (nan, false, 0)
  else if poa_global ≤ 0 then (0, true, 0)
  else
    let poa_error : Fl → Fl := fun ghi =>
      let poa_hat := poaFromGhi surface_tilt surface_azimuth solar_zenith solar_azimuth ghi dni_extra airmass albedo
      poa_hat - poa_global
    let ghi_clear := dni_extra * cosd solar_zenith
    let ghi_high := maximum 10 (1.25 * ghi_clear)
    match bisect poa_error 0 ghi_high xtol bisectRtol 25 with
    | .error _ => (nan, false, -1)
    | .ok r => r

/-- `ghi_from_poa_driesse_2024`, pvlib/irradiance.py:1654-1753, per element (`np.vectorize` applies
`_ghi_from_poa` to each element independently); the triple returned with `full_output=True`. -/
def ghiFromPoa (surface_tilt surface_azimuth solar_zenith solar_azimuth poa_global dni_extra : Fl)
    (airmass : Option Fl := none) (albedo : Fl := 0.25) (xtol : Fl := 0.01) : Except PyErr (Fl × Bool × ℤ) :=
  if xtol ≤ 0 then .error .valueError
  else .ok (ghiFromPoa1 surface_tilt surface_azimuth solar_zenith solar_azimuth poa_global dni_extra airmass
    albedo xtol)

/-! ### DIRINDEX -/

/-- `dirindex`, pvlib/irradiance.py:2302-2401, on Series of length `n`. -/
def dirindex (n : ℕ) (ghi ghi_clear dni_clear zenith doy : Series) (pressure : Option Fl := some 101325)
    (use_delta_kt_prime : Bool := true) (temp_dew : Option Series := none)
    (min_cos_zenith : Fl := 0.065) (max_zenith : Fl := 87) : Series := fun i =>
  let dni_dirint := dirint n ghi zenith doy pressure use_delta_kt_prime temp_dew min_cos_zenith max_zenith
  let dni_dirint_clearsky :=
    dirint n ghi_clear zenith doy pressure use_delta_kt_prime temp_dew min_cos_zenith max_zenith
  let dni_dirindex := dni_clear i * dni_dirint i / dni_dirint_clearsky i
  if dni_dirindex < 0 then 0 else dni_dirindex

/-! ### GTI-DIRINT -/

/-- `_dirint_from_dni_ktprime`, pvlib/irradiance.py:2154-2168. -/
def dirintFromDniKtprime (n : ℕ) (dni kt_prime solar_zenith : Series) (use_delta_kt_prime : Bool)
    (temp_dew : Option Series) : Series := fun p =>
  let delta_kt_prime := deltaKtPrime n kt_prime use_delta_kt_prime
  let w := tempDewW temp_dew
  dni p * dirintCoeffs (kt_prime p) (solar_zenith p) (w p) (delta_kt_prime p)

/-- The site data of a GTI-DIRINT call.  `date p` identifies the calendar day of time `p`
(`times.date`) and `doy p` its day of year. (Used for pvlib/irradiance.py:2556-2557.) -/
structure GtiCall where
  n : ℕ
  (poa_global aoi solar_zenith solar_azimuth doy : Series)
  date : ℕ → ℤ
  (surface_tilt surface_azimuth : Fl)
  pressure : Fl := 101325
  use_delta_kt_prime : Bool := true
  temp_dew : Option Series := none
  albedo : Fl := 0.25
  model : String := "perez"
  model_perez : String := "allsitescomposite1990"
  calculate_gt_90 : Bool := true
  max_iterations : ℕ := 30

variable (perezTable : String → Option PerezTable)

/-- `airmass` of GTI-DIRINT, pvlib/irradiance.py:2556-2557 and 2671-2672. -/
def gtiAirmass (c : GtiCall) : Series := fun p =>
  Atmosphere.absoluteAirmass (Atmosphere.kasten1966 (c.solar_zenith p)) c.pressure

/-- The transposition inside a pass, pvlib/irradiance.py:2611-2614, at one time. -/
def gtiIrrad (c : GtiCall) (dni ghi dhi : Series) (p : ℕ) : Except PyErr Poa :=
  getTotalIrradiance perezTable pdF c.surface_tilt c.surface_azimuth (c.solar_zenith p) (c.solar_azimuth p)
    (dni p) (ghi p) (dhi p) (some (extraSpencer (c.doy p) 1370)) (some (gtiAirmass c p)) c.albedo none c.model
    c.model_perez false

/-- One pass of the loop of `_gti_dirint_lt_90`, pvlib/irradiance.py:2590-2616.  A failing transposition
(unknown model names) is handled in `gtiDirint`: here it gives NaN. -/
def gtiStep (c : GtiCall) (poa_global_i : Series) : GtiIter :=
  let I0 : Series := fun p => extraSpencer (c.doy p) 1370
  let cos_zenith : Series := fun p => cosd (c.solar_zenith p)
  let I0h : Series := fun p => I0 p * maximum 0.065 (cos_zenith p)
  let airmass := gtiAirmass c
  let kt : Series := fun p => clearnessIndex (poa_global_i p) (c.aoi p) (I0 p)
  let disc_dni : Series := fun p => maximum ((discKn (kt p) (airmass p)).1 * I0 p) 0
  let kt_prime : Series := fun p => clearnessIndexZenithIndependent (kt p) (airmass p)
  let dni := dirintFromDniKtprime c.n disc_dni kt_prime c.solar_zenith c.use_delta_kt_prime c.temp_dew
  let ghi : Series := fun p => kt p * I0h p
  let dhi : Series := fun p => ghi p - dni p * cos_zenith p
  let dni : Series := fun p => maximum (dni p) 0
  let ghi : Series := fun p => maximum (ghi p) 0
  let dhi : Series := fun p => maximum (dhi p) 0
  let gti_model : Series := fun p =>
    match gtiIrrad perezTable c dni ghi dhi p with
    | .ok r => r.poa_global
    | .error _ => nan
  ⟨ghi, dni, dhi, kt_prime, gti_model⟩

/-- `Series[mask].mean()`: NaN skipped, NaN when nothing is left. (Used for pvlib/irradiance.py:2692-2737.) -/
def maskedMean (n : ℕ) (mask : ℕ → Prop) (x : Series) : Fl :=
  let w := (List.range n).filter (fun j => mask j ∧ x j ≠ nan)
  if w = [] then nan else w.foldl (fun a j => a + x j) 0 / fin w.length

/-- `_gti_dirint_gte_90_kt_prime`, pvlib/irradiance.py:2692-2737.  Simplification: `times` is in date order, so
that the concatenation over the days is the identity on positions. -/
def gtiGte90KtPrime (c : GtiCall) (kt_prime : Series) : Series := fun p =>
  let aoi_65_80 : ℕ → Prop := fun j => 65 < c.aoi j ∧ c.aoi j < 80
  let morning : ℕ → Prop := fun j => c.solar_azimuth j < 180
  let afternoon : ℕ → Prop := fun j => 180 < c.solar_azimuth j
  let day : ℕ → Prop := fun j => c.date j = c.date p
  let kt_prime_am_avg := maskedMean c.n (fun j => day j ∧ aoi_65_80 j ∧ morning j) kt_prime
  let kt_prime_pm_avg := maskedMean c.n (fun j => day j ∧ aoi_65_80 j ∧ afternoon j) kt_prime
  let v := nan
  let v := if c.solar_zenith p < 90 ∧ 90 ≤ c.aoi p ∧ morning p then kt_prime_am_avg else v
  if c.solar_zenith p < 90 ∧ 90 ≤ c.aoi p ∧ afternoon p then kt_prime_pm_avg else v

/-- `_gti_dirint_gte_90`, pvlib/irradiance.py:2658-2689: `(ghi, dni, dhi)`. -/
def gtiGte90 (c : GtiCall) (kt_prime : Series) : Series × Series × Series :=
  let kt_prime_gte_90 := gtiGte90KtPrime c kt_prime
  let I0 : Series := fun p => extraSpencer (c.doy p) 1370
  let airmass := gtiAirmass c
  let kt : Series := fun p => kt_prime_gte_90 p * ktKtPrimeFactor (airmass p)
  let disc_dni : Series := fun p => maximum ((discKn (kt p) (airmass p)).1 * I0 p) 0
  let dni_gte_90 := dirintFromDniKtprime c.n disc_dni kt_prime c.solar_zenith false c.temp_dew
  let dni_gte_90_proj : Series := fun p => dni_gte_90 p * cosd (c.solar_zenith p)
  let cos_surface_tilt := cosd c.surface_tilt
  let dhi_gte_90 : Series := fun p =>
    (2 * c.poa_global p - dni_gte_90_proj p * c.albedo * (1 - cos_surface_tilt)) /
      (1 + cos_surface_tilt + c.albedo * (1 - cos_surface_tilt))
  let ghi_gte_90 : Series := fun p => dni_gte_90_proj p + dhi_gte_90 p
  (ghi_gte_90, dni_gte_90, dhi_gte_90)

/-- Result of `gti_dirint`. (Used for pvlib/irradiance.py:2404-2538.) -/
structure GtiOut where
  (ghi dni dhi : Series)

/-- `gti_dirint`, pvlib/irradiance.py:2404-2538, with the AOI < 90 part of `_gti_dirint_lt_90` (2541-2655).  The
transposition fails (unknown model) independently of the data; it is evaluated in the first pass only if there is
one, hence the test on `max_iterations`. -/
def gtiDirint (c : GtiCall) : Except PyErr GtiOut :=
  let aoi_lt_90 : ℕ → Prop := fun p => c.aoi p < 90
  if ¬ ∃ p < c.n, aoi_lt_90 p then .error .valueError
  else
    let first := gtiStep perezTable c c.poa_global
    match (if c.max_iterations = 0 then .ok () else
        (gtiIrrad perezTable c first.dni first.ghi first.dhi 0).map fun _ => ()) with
    | .error e => .error e
    | .ok () =>
      match gtiDirintLt90 c.n (gtiStep perezTable c) c.poa_global aoi_lt_90 c.max_iterations with
      | .error e => .error e
      | .ok ((ghi, dni, dhi, kt_prime), _) =>
        let back : Series × Series × Series :=
          if c.calculate_gt_90 then gtiGte90 c kt_prime else (fun _ => nan, fun _ => nan, fun _ => nan)
        .ok ⟨fun p => if aoi_lt_90 p then ghi p else back.1 p,
             fun p => if aoi_lt_90 p then dni p else back.2.1 p,
             fun p => if aoi_lt_90 p then dhi p else back.2.2 p⟩

end Pvlib.Irradiance
end
