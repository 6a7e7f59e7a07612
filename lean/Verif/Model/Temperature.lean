import Verif.Model.Tools
import Verif.Base.Series

/-! # Model of `pvlib/temperature.py` -/

noncomputable section
open scoped Classical
namespace Pvlib.Temperature
open Fl

/-- `sapm_module`, pvlib/temperature.py:164-244. -/
def sapmModule (poa_global temp_air wind_speed a b : Fl) : Fl :=
  poa_global * Fl.exp (a + b * wind_speed) + temp_air

/-- `sapm_cell_from_module`, pvlib/temperature.py:247-326. -/
def sapmCellFromModule (module_temperature poa_global deltaT : Fl) (irrad_ref : Fl := 1000) : Fl :=
  module_temperature + (poa_global / irrad_ref) * deltaT

/-- `sapm_cell`, pvlib/temperature.py:57-161. -/
def sapmCell (poa_global temp_air wind_speed a b deltaT : Fl) (irrad_ref : Fl := 1000) : Fl :=
  sapmCellFromModule (sapmModule poa_global temp_air wind_speed a b) poa_global deltaT irrad_ref

/-- `pvsyst_cell`, pvlib/temperature.py:329-431. -/
def pvsystCell (poa_global temp_air : Fl) (wind_speed : Fl := 1) (u_c : Fl := 29) (u_v : Fl := 0)
    (module_efficiency : Fl := 0.1) (alpha_absorption : Fl := 0.9) : Fl :=
  let total_loss_factor := u_c + u_v * wind_speed
  let heat_input := poa_global * alpha_absorption * (1 - module_efficiency)
  let temp_difference := heat_input / total_loss_factor
  temp_air + temp_difference

/-- `faiman`, pvlib/temperature.py:434-508. -/
def faiman (poa_global temp_air : Fl) (wind_speed : Fl := 1) (u0 : Fl := 25) (u1 : Fl := 6.84) : Fl :=
  let total_loss_factor := u0 + u1 * wind_speed
  let heat_input := poa_global
  let temp_difference := heat_input / total_loss_factor
  temp_air + temp_difference

/-- `faiman_rad`, pvlib/temperature.py:511-617.  `sigma` is `scipy.constants.Stefan_Boltzmann` (whose
digits depend on the installed scipy), so it is a parameter. -/
def faimanRad (sigma : Fl) (poa_global temp_air : Fl) (wind_speed : Fl := 1) (ir_down : Option Fl := none)
    (u0 : Fl := 25) (u1 : Fl := 6.84) (sky_view : Fl := 1) (emissivity : Fl := 0.88) : Fl :=
  let abs_zero : Fl := -273.15
  let qrad_sky :=
    match ir_down with
    | none => 0
    | some ir => emissivity * sky_view * (sigma * (temp_air - abs_zero) ^ 4 - ir)
  let heat_input := poa_global - qrad_sky
  let total_loss_factor := u0 + u1 * wind_speed
  let temp_difference := heat_input / total_loss_factor
  temp_air + temp_difference

/-- `ross`, pvlib/temperature.py:620-712. -/
def ross (poa_global temp_air : Fl) (noct k : Option Fl) : Except PyErr Fl :=
  match noct, k with
  | none, none => .error .valueError
  | some _, some _ => .error .valueError
  | some noct, none => .ok (temp_air + (noct - 20) / 80 * poa_global * 0.1)
  | none, some k => .ok (temp_air + k * poa_global)

/-! ### Fuentes -/

/-- `_fuentes_hconv`, pvlib/temperature.py:715-737. -/
def fuentesHconv (tave windmod temp_delta xlen tilt : Fl) (check_reynold : Prop) : Fl :=
  let densair := 0.003484 * 101325 / tave
  let visair := 0.24237e-6 * Fl.rpow tave 0.76 / densair
  let condair := 2.1695e-4 * Fl.rpow tave 0.84
  let reynold := windmod * xlen / visair
  let hforce :=
    if check_reynold ∧ 1.2e5 < reynold then
      0.0282 / Fl.rpow reynold 0.2 * densair * windmod * 1007 / Fl.rpow 0.71 0.4
    else
      0.8600 / Fl.rpow reynold 0.5 * densair * windmod * 1007 / Fl.rpow 0.71 0.67
  let grashof := 9.8 / tave * temp_delta * xlen ^ 3 / visair ^ 2 * Tools.sind tilt
  let hfree := 0.21 * Fl.rpow (grashof * 0.71) 0.32 * condair / xlen
  Fl.rpow (hfree ^ 3 + hforce ^ 3) (1 / 3)

/-- `_hydraulic_diameter`, pvlib/temperature.py:740-742. -/
def hydraulicDiameter (width height : Fl) : Fl := 2 * (width * height) / (width + height)

/-- What `fuentes` computes before its loop over the time series (pvlib/temperature.py:825-861). -/
structure FuentesSetup where
  emiss : Fl
  boltz : Fl
  xlen : Fl
  tilt : Fl
  tgrat : Fl
  convrat : Fl
  cap : Fl

/-- `fuentes`, pvlib/temperature.py:825-861: ground temperature ratio, convection ratio and thermal mass
from the installed NOCT. -/
def fuentesSetup (noct_installed : Fl) (emissivity : Fl := 0.84) (absorption : Fl := 0.83)
    (surface_tilt : Fl := 30) (module_width : Fl := 0.31579) (module_length : Fl := 1.2) : FuentesSetup :=
  let boltz : Fl := 5.669e-8
  let emiss := emissivity
  let absorp := absorption
  let xlen := hydraulicDiameter module_width module_length
  let cap0 : Fl := 11000
  let tinoct := noct_installed + 273.15
  let windmod : Fl := 1
  let tave := (tinoct + 293.15) / 2
  let hconv := fuentesHconv tave windmod (tinoct - 293.15) xlen surface_tilt False
  let hground := emiss * boltz * (tinoct ^ 2 + (293.15 : Fl) ^ 2) * (tinoct + 293.15)
  let backrat := (absorp * 800 - emiss * boltz * (tinoct ^ 4 - (282.21 : Fl) ^ 4)
      - hconv * (tinoct - 293.15)) / ((hground + hconv) * (tinoct - 293.15))
  let tground := Fl.rpow (tinoct ^ 4 - backrat * (tinoct ^ 4 - (293.15 : Fl) ^ 4)) 0.25
  let tground := clip tground 293.15 tinoct
  let tgrat := (tground - 293.15) / (tinoct - 293.15)
  let convrat := (absorp * 800 - emiss * boltz * (2 * tinoct ^ 4 - (282.21 : Fl) ^ 4 - tground ^ 4)) /
      (hconv * (tinoct - 293.15))
  let cap := if 321.15 < tinoct then cap0 * (1 + (tinoct - 321.15) / 12) else cap0
  { emiss := emiss, boltz := boltz, xlen := xlen, tilt := surface_tilt, tgrat := tgrat,
    convrat := convrat, cap := cap }

/-- One pass of the inner loop of `fuentes` (`for j in range(10)`), pvlib/temperature.py:895-922:
`tmod0`, `sun0` are the previous sample's temperature and absorbed irradiance, `tmod` the current iterate. -/
def fuentesInner (s : FuentesSetup) (tamb sun windmod tsky dtime tmod0 sun0 tmod : Fl) : Fl :=
  let tave := (tmod + tamb) / 2
  let hconv := s.convrat * fuentesHconv tave windmod (Fl.abs (tmod - tamb)) s.xlen s.tilt True
  let hsky := s.emiss * s.boltz * (tmod ^ 2 + tsky ^ 2) * (tmod + tsky)
  let tground := tamb + s.tgrat * (tmod - tamb)
  let hground := s.emiss * s.boltz * (tmod ^ 2 + tground ^ 2) * (tmod + tground)
  let eigen := -(hconv + hsky + hground) / s.cap * dtime * 3600
  let ex := if -10 < eigen then Fl.exp eigen else 0
  tmod0 * ex + ((1 - ex) * (hconv * tamb + hsky * tsky + hground * tground + sun0
      + (sun - sun0) / eigen) + sun - sun0) / (hconv + hsky + hground)

/-- `f` applied `n` times. (Used for pvlib/temperature.py:889-923.) -/
def iter {α : Type} (f : α → α) : ℕ → α → α
  | 0, x => x
  | n + 1, x => iter f n (f x)

/-- One sample of the outer loop of `fuentes`, pvlib/temperature.py:889-923. -/
def fuentesStep (s : FuentesSetup) (tamb sun windmod tsky dtime tmod0 sun0 : Fl) : Fl :=
  iter (fuentesInner s tamb sun windmod tsky dtime tmod0 sun0) 10 tmod0

/-- Sky temperature, pvlib/temperature.py:878. -/
def fuentesSky (tamb : Fl) : Fl := 0.68 * (0.0552 * Fl.rpow tamb 1.5) + 0.32 * tamb

/-- Wind speed at module height, pvlib/temperature.py:882. -/
def fuentesWind (wind_speed module_height wind_height : Fl) : Fl :=
  wind_speed * Fl.rpow (module_height / wind_height) 0.2 + 1e-4

/-- The outer loop of `fuentes`, pvlib/temperature.py:863-925, in kelvin: the value stored in
`tmod_array[i]`.  `dtime i` is `timedelta_hours.iloc[i]`. -/
def fuentesTmod (s : FuentesSetup) (tamb sun windmod dtime : ℕ → Fl) : ℕ → Fl
  | 0 => fuentesStep s (tamb 0) (sun 0) (windmod 0) (fuentesSky (tamb 0)) (dtime 0) 293.15 0
  | i + 1 => fuentesStep s (tamb (i + 1)) (sun (i + 1)) (windmod (i + 1)) (fuentesSky (tamb (i + 1)))
      (dtime (i + 1)) (fuentesTmod s tamb sun windmod dtime i) (sun i)

/-- `fuentes`, pvlib/temperature.py:745-927, by position.  `hours i` is the time of sample `i` in hours
(at least two samples: the code reads `timedelta_hours.iloc[1]`); the first time step is taken equal to the
second (line 871). -/
def fuentes (poa_global temp_air wind_speed : ℕ → Fl) (hours : ℕ → ℝ) (noct_installed : Fl)
    (module_height : Fl := 5) (wind_height : Fl := 9.144) (emissivity : Fl := 0.84) (absorption : Fl := 0.83)
    (surface_tilt : Fl := 30) (module_width : Fl := 0.31579) (module_length : Fl := 1.2) : Series :=
  let s := fuentesSetup noct_installed emissivity absorption surface_tilt module_width module_length
  let dtime : ℕ → Fl := fun i => if i = 0 then fin (hours 1 - hours 0) else fin (hours i - hours (i - 1))
  fun i => fuentesTmod s (fun j => temp_air j + 273.15) (fun j => poa_global j * absorption)
      (fun j => fuentesWind (wind_speed j) module_height wind_height) dtime i - 273.15

/-! ### NOCT SAM -/

/-- `_adj_for_mounting_standoff`, pvlib/temperature.py:930-937: `np.piecewise` with six conditions and six
values (the last matching condition wins; 0 when none matches, as for NaN). -/
def adjStandoff (x : Fl) : Fl :=
  if 3.5 < x then 0
  else if 2.5 ≤ x ∧ x ≤ 3.5 then 2
  else if 1.5 ≤ x ∧ x < 2.5 then 6
  else if 0.5 ≤ x ∧ x < 1.5 then 11
  else if 0 < x ∧ x < 0.5 then 18
  else if x ≤ 0 then 0
  else 0

/-- `noct_sam`, pvlib/temperature.py:940-1033. -/
def noctSam (poa_global temp_air wind_speed noct module_efficiency : Fl)
    (effective_irradiance : Option Fl := none) (transmittance_absorptance : Fl := 0.9)
    (array_height : Fl := 1) (mount_standoff : Fl := 4) : Except PyErr Fl :=
  let irr_ratio := match effective_irradiance with
    | none => 1
    | some e => e / poa_global
  let body (wind_adj : Fl) : Fl :=
    let noct_adj := noct + adjStandoff mount_standoff
    let tau_alpha := transmittance_absorptance * irr_ratio
    let cell_temp_init := poa_global / 800 * (noct_adj - 20)
    let heat_loss := 1 - module_efficiency / tau_alpha
    let wind_loss := 9.5 / (5.7 + 3.8 * wind_adj)
    temp_air + cell_temp_init * heat_loss * wind_loss
  if eqv array_height 1 then .ok (body (0.51 * wind_speed))
  else if eqv array_height 2 then .ok (body (0.61 * wind_speed))
  else .error .valueError

/-! ### Prilliman -/

/-- `tools._get_sample_intervals(times, win_length)`, pvlib/tools.py:427-445, for an index of `n` times in
whole seconds (simplification: pandas times have nanosecond resolution).  `times.inferred_freq` is not None
for at least three equally spaced distinct times.  The interval is `Timedelta.seconds / 60`: `.seconds` is
the seconds *within a day*, so a whole number of days gives 0 and the division
`win_length / sample_interval` raises ZeroDivisionError. Returns (interval in minutes, samples per window). -/
def sampleIntervals (times : ℕ → ℤ) (n : ℕ) (win_length : ℝ) : Except PyErr (ℝ × ℕ) :=
  if 3 ≤ n ∧ times 1 - times 0 ≠ 0 ∧ ∀ i, i + 1 < n → times (i + 1) - times i = times 1 - times 0 then
    let seconds : ℤ := (times 1 - times 0) % 86400
    if seconds = 0 then .error .zeroDivision
    else
      let sample_interval : ℝ := (seconds : ℝ) / 60
      .ok (sample_interval, ⌊win_length / sample_interval⌋₊)
  else .error .notImplementedError

/-- `np.nansum`. (Used for pvlib/temperature.py:1036-1187.) -/
def nansum (xs : List Fl) : Fl := Fl.sum (xs.filter (fun x => x ≠ nan))

/-- `temp_cell_prefixed[H].T[i, r]`, pvlib/temperature.py:1110-1118: `samples` NaNs are put in front of the
data and row `i` of the Hankel matrix reads positions `i, i+1, ..., i+samples-1`. -/
def prillimanSubset (temp_cell : ℕ → Fl) (samples i r : ℕ) : Fl :=
  if r + i < samples then nan else temp_cell (r + i - samples)

/-- `weights[i, r]` after line 1173, pvlib/temperature.py:1132-1173. -/
def prillimanWeight (temp_cell wind_speed : ℕ → Fl) (unit_mass : Fl) (a : Fl × Fl × Fl × Fl)
    (sample_interval : ℝ) (samples i r : ℕ) : Fl :=
  let p := a.1 + a.2.1 * wind_speed i + a.2.2.1 * unit_mass + a.2.2.2 * wind_speed i * unit_mass
  let timedelta : Fl := fin ((samples - r : ℕ) * sample_interval * 60)
  if prillimanSubset temp_cell samples i r = nan then 0 else Fl.exp (-p * timedelta)

/-- `prilliman`, pvlib/temperature.py:1036-1187, for `n` samples (positions `< n`). -/
def prilliman (temp_cell wind_speed : ℕ → Fl) (times : ℕ → ℤ) (n : ℕ) (unit_mass : Fl := 11.1)
    (coefficients : Option (Fl × Fl × Fl × Fl) := none) : Except PyErr Series :=
  match sampleIntervals times n 20 with
  | .error e => .error e
  | .ok (sample_interval, samples_per_window) =>
    if 20 ≤ sample_interval then .ok temp_cell
    else
      let samples := min samples_per_window n
      let a := coefficients.getD (0.0046, 0.00046, -0.00023, -1.6e-5)
      .ok (fun i =>
        if i = 0 then temp_cell 0
        else
          let w := prillimanWeight temp_cell wind_speed unit_mass a sample_interval samples i
          let numerator := nansum ((List.range samples).map
            (fun r => prillimanSubset temp_cell samples i r * w r))
          let denominator := Fl.sum ((List.range samples).map w)
          numerator / denominator)

/-! ### Generic linear model -/

/-- `generic_linear`, pvlib/temperature.py:1190-1243. -/
def genericLinear (poa_global temp_air wind_speed u_const du_wind module_efficiency absorptance : Fl) : Fl :=
  let heat_input := poa_global * (absorptance - module_efficiency)
  let total_loss_factor := u_const + du_wind * wind_speed
  let temp_difference := heat_input / total_loss_factor
  temp_air + temp_difference

/-- The attributes of a `GenericLinearModel`, pvlib/temperature.py:1309-1316; `get_generic_linear`, pvlib/temperature.py:1360-1376, returns them. -/
structure GLM where
  u_const : Fl
  du_wind : Fl
  eta : Fl
  alpha : Fl

namespace GLM

/-- `GenericLinearModel.__init__`, pvlib/temperature.py:1309-1316. -/
def init (module_efficiency absorptance : Fl) : GLM :=
  { u_const := nan, du_wind := nan, eta := module_efficiency, alpha := absorptance }

/-- `GenericLinearModel.__call__`, pvlib/temperature.py:1322-1358. -/
def call (s : GLM) (poa_global temp_air wind_speed : Fl) (module_efficiency : Option Fl := none) : Fl :=
  genericLinear poa_global temp_air wind_speed s.u_const s.du_wind (module_efficiency.getD s.eta) s.alpha

/-- `use_faiman`, pvlib/temperature.py:1378-1391. -/
def useFaiman (s : GLM) (u0 u1 : Fl) : GLM :=
  let net_absorptance := s.alpha - s.eta
  { s with u_const := u0 * net_absorptance, du_wind := u1 * net_absorptance }

/-- `to_faiman`, pvlib/temperature.py:1393-1407: (u0, u1). -/
def toFaiman (s : GLM) : Fl × Fl :=
  let net_absorptance := s.alpha - s.eta
  (s.u_const / net_absorptance, s.du_wind / net_absorptance)

/-- `use_pvsyst`, pvlib/temperature.py:1409-1440. -/
def usePvsyst (s : GLM) (u_c u_v : Fl) (module_efficiency alpha_absorption : Option Fl) : GLM :=
  let eta := module_efficiency.getD s.eta
  let alpha := alpha_absorption.getD s.alpha
  let net_absorptance_glm := alpha - eta
  let net_absorptance_pvsyst := alpha * (1 - eta)
  let absorptance_ratio := net_absorptance_glm / net_absorptance_pvsyst
  { eta := eta, alpha := alpha, u_const := u_c * absorptance_ratio, du_wind := u_v * absorptance_ratio }

/-- `to_pvsyst`, pvlib/temperature.py:1442-1462: (u_c, u_v, module_efficiency, alpha_absorption). -/
def toPvsyst (s : GLM) : Fl × Fl × Fl × Fl :=
  let net_absorptance_glm := s.alpha - s.eta
  let net_absorptance_pvsyst := s.alpha * (1 - s.eta)
  let absorptance_ratio := net_absorptance_glm / net_absorptance_pvsyst
  (s.u_const / absorptance_ratio, s.du_wind / absorptance_ratio, s.eta, s.alpha)

/-- `use_noct_sam`, pvlib/temperature.py:1464-1495. -/
def useNoctSam (s : GLM) (noct : Fl) (module_efficiency transmittance_absorptance : Option Fl) : GLM :=
  let eta := module_efficiency.getD s.eta
  let alpha := transmittance_absorptance.getD s.alpha
  let wind_adj : Fl := 0.51
  let u_noct := 800 * alpha / (noct - 20)
  { eta := eta, alpha := alpha, u_const := u_noct * 0.6, du_wind := u_noct * 0.4 * wind_adj }

/-- `to_noct_sam`, pvlib/temperature.py:1497-1515: (noct, module_efficiency, transmittance_absorptance). -/
def toNoctSam (s : GLM) : Fl × Fl × Fl :=
  let wind_adj : Fl := 0.51
  let u_noct := s.u_const + s.du_wind / wind_adj
  (20 + 800 * s.alpha / u_noct, s.eta, s.alpha)

/-- `use_sapm`, pvlib/temperature.py:1517-1557. -/
def useSapm (s : GLM) (a b : Fl) (wind_fit_low : Fl := 1.4) (wind_fit_high : Fl := 5.4) : GLM :=
  let u_low := 1 / Fl.exp (a + b * wind_fit_low)
  let u_high := 1 / Fl.exp (a + b * wind_fit_high)
  let du_wind := (u_high - u_low) / (wind_fit_high - wind_fit_low)
  let u_const := u_low - du_wind * wind_fit_low
  let net_absorptance := s.alpha - s.eta
  { s with u_const := u_const * net_absorptance, du_wind := du_wind * net_absorptance }

/-- `to_sapm`, pvlib/temperature.py:1559-1603: (a, b). -/
def toSapm (s : GLM) (wind_fit_low : Fl := 1.4) (wind_fit_high : Fl := 5.4) : Fl × Fl :=
  let net_absorptance := s.alpha - s.eta
  let u_const := s.u_const / net_absorptance
  let du_wind := s.du_wind / net_absorptance
  let u_low := u_const + du_wind * wind_fit_low
  let u_high := u_const + du_wind * wind_fit_high
  let b := -((Fl.log u_high - Fl.log u_low) / (wind_fit_high - wind_fit_low))
  let a := -(Fl.log u_low + b * wind_fit_low)
  (a, b)

/-- The mutating methods of a `GenericLinearModel`. (Used for pvlib/temperature.py:1378-1604.) -/
inductive Op where
  | faiman (u0 u1 : Fl)
  | pvsyst (u_c u_v : Fl) (module_efficiency alpha_absorption : Option Fl)
  | noctSam (noct : Fl) (module_efficiency transmittance_absorptance : Option Fl)
  | sapm (a b wind_fit_low wind_fit_high : Fl)

/-- One method call on the object. (Used for pvlib/temperature.py:1378-1604.) -/
def step (s : GLM) : Op → GLM
  | .faiman u0 u1 => s.useFaiman u0 u1
  | .pvsyst u_c u_v e a => s.usePvsyst u_c u_v e a
  | .noctSam n e a => s.useNoctSam n e a
  | .sapm a b lo hi => s.useSapm a b lo hi

end GLM
end Pvlib.Temperature
end
