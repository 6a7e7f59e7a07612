import Verif.Model.Tools
import Verif.Base.Series
import Mathlib.Analysis.SpecialFunctions.Gaussian.GaussianIntegral

/-! # Model of `pvlib/snow.py` and `pvlib/soiling.py`

Times are real numbers of hours (snow) or seconds (soiling) since an arbitrary origin. -/

noncomputable section
open scoped Classical
open Real
namespace Pvlib.Snow
open Fl Pvlib.Tools Series

/-- `fully_covered_nrel`, pvlib/snow.py:16-71.  `freq` is what `pd.infer_freq` returns, as a number
of hours (its inference rule is not modelled: every value, and `None`, is covered). -/
def fullyCoveredNrel (t : ℕ → ℝ) (freq : Option ℝ) (snowfall : Series)
    (snow_depth : Option Series) (threshold_snowfall threshold_depth : Fl) : ℕ → Prop :=
  let timestep := timeDiff t
  let hourly_snow_rate : Series := fun i => snowfall i / timestep i
  let hourly_snow_rate := match freq with
    | some timedelta => setFirst hourly_snow_rate (snowfall 0 / fin timedelta)
    | none => setFirst hourly_snow_rate 0
  let covered : ℕ → Prop := fun i => threshold_snowfall < hourly_snow_rate i
  match snow_depth with
  | some d => fun i => covered i ∧ threshold_depth ≤ d i
  | none => covered

/-- The `slide_amt` Series of `coverage_nrel`, pvlib/snow.py:149-163. -/
def slideAmt (t : ℕ → ℝ) (new_snowfall : ℕ → Prop) (poa_irradiance temp_air surface_tilt : Series)
    (snow_depth : Option Series) (threshold_depth can_slide_coefficient slide_amount_coefficient : Fl) :
    Series :=
  let can_slide : ℕ → Prop := fun i => poa_irradiance i / can_slide_coefficient < temp_air i
  let slide_amt : Series := fun i => slide_amount_coefficient * sind (surface_tilt i) * timeDiff t i
  let slide_amt := setMask slide_amt (fun i => ¬ can_slide i) (fun _ => 0)
  let slide_amt := setMask slide_amt new_snowfall (fun _ => 0)
  let slide_amt := setFirst slide_amt 0
  match snow_depth with
  | some d => setMask slide_amt (fun i => d i < threshold_depth) (fun _ => 1)
  | none => slide_amt

/-- `coverage_nrel`, pvlib/snow.py:74-176. -/
def coverageNrel (t : ℕ → ℝ) (freq : Option ℝ) (snowfall poa_irradiance temp_air surface_tilt : Series)
    (snow_depth : Option Series := none) (initial_coverage : Fl := 0)
    (threshold_snowfall : Fl := 1) (threshold_depth : Fl := 1)
    (can_slide_coefficient : Fl := fin (-80)) (slide_amount_coefficient : Fl := 0.197) : Series :=
  let new_snowfall := fullyCoveredNrel t freq snowfall snow_depth threshold_snowfall threshold_depth
  let snow_coverage : Series := fun _ => nan
  let slide_amt := slideAmt t new_snowfall poa_irradiance temp_air surface_tilt snow_depth
    threshold_depth can_slide_coefficient slide_amount_coefficient
  let sliding_period_ID := boolCumsum new_snowfall
  let cumulative_sliding := groupCumsum sliding_period_ID slide_amt
  let snow_coverage := setMask snow_coverage new_snowfall (fun _ => 1)
  let snow_coverage := if isnan (snow_coverage 0) then setFirst snow_coverage initial_coverage
    else snow_coverage
  let snow_coverage := ffill snow_coverage
  let snow_coverage : Series := fun i => snow_coverage i - cumulative_sliding i
  clipLower snow_coverage 0

/-- `dc_loss_nrel`, pvlib/snow.py:179-216. -/
def dcLossNrel (snow_coverage num_strings : Fl) : Fl := Fl.ceil (snow_coverage * num_strings) / num_strings

/-- `_townsend_effective_snow`, pvlib/snow.py:219-246. -/
def townsendEffectiveSnow (snow_total snow_events : Fl) : Fl :=
  let snow_events_no_zeros := maximum snow_events 1
  let effective_snow := 0.5 * snow_total * (1 + 1 / snow_events_no_zeros)
  npwhere (0 < snow_events) effective_snow 0

/-- `np.roll(x, 1)[i]` for an array of length `n`. (Used for pvlib/snow.py:249-400.) -/
def roll1 (n : ℕ) (x : Series) : Series := fun i => x ((i + n - 1) % n)

/-- `loss_townsend`, pvlib/snow.py:249-400, for monthly arrays of length `n`. -/
def lossTownsend (n : ℕ) (snow_total snow_events surface_tilt relative_humidity temp_air poa_global
    slant_height lower_edge_height : Series) (string_factor : Fl := 1) (angle_of_repose : Fl := 40)
    (front_side_fraction : Fl := 1) : Series := fun i =>
  let snow_total_inches : Series := fun j => snow_total j / 2.54
  let relative_humidity_fraction := relative_humidity i / 100
  let poa_global_kWh := poa_global i / 1000
  let slant_height_inches := slant_height i * 39.37
  let lower_edge_height_inches := lower_edge_height i * 39.37
  let temp_air_kelvin := temp_air i + 273.15
  let C1 : Fl := 5.7e04
  let C2 : Fl := 0.51
  let snow_total_prev := roll1 n snow_total_inches
  let snow_events_prev := roll1 n snow_events
  let effective_snow := townsendEffectiveSnow (snow_total_inches i) (snow_events i)
  let effective_snow_prev := townsendEffectiveSnow (snow_total_prev i) (snow_events_prev i)
  let effective_snow_weighted := 1 / 3 * effective_snow_prev + 2 / 3 * effective_snow
  let lower_edge_distance := maximum (lower_edge_height_inches ^ 2 - effective_snow_weighted ^ 2) 0.1
  let gamma := slant_height_inches * effective_snow_weighted * cosd (surface_tilt i)
    / lower_edge_distance * 2 * tand angle_of_repose
  let ground_interference_term := 1 - C2 * Fl.exp (-gamma)
  let loss_fraction := C1 * effective_snow_weighted * cosd (surface_tilt i) ^ 2
    * ground_interference_term * relative_humidity_fraction / temp_air_kelvin ^ 2
    / rpow poa_global_kWh 0.67 * string_factor
  let loss_fraction := loss_fraction * front_side_fraction
  clip loss_fraction 0 1

end Pvlib.Snow

namespace Pvlib.Soiling
open Fl Pvlib.Tools Series

/-- The error function on real numbers. (Used for pvlib/soiling.py:13-113.) -/
def rerf (x : ℝ) : ℝ := 2 / √π * ∫ s in (0 : ℝ)..x, Real.exp (-1 * s ^ 2)

/-- `scipy.special.erf`. (Used for pvlib/soiling.py:13-113.) -/
def erf : Fl → Fl
  | nan => nan
  | ninf => fin (-1)
  | fin a => fin (rerf a)
  | pinf => fin 1

/-- The time steps of `hsu` in seconds, pvlib/soiling.py:89-94: the first interval is taken to be as
long as the second.  (A one-element index raises an IndexError and is excluded.) -/
def dtSec (t : ℕ → ℝ) : ℕ → ℝ
  | 0 => t 1 - t 0
  | i + 1 => t (i + 1) - t i

/-- The mass deposited in each step, pvlib/soiling.py:96-102. -/
def tiltedMassRate (t : ℕ → ℝ) (surface_tilt : Fl) (pm2_5 pm10 : Series) (v2_5 v10 : Fl) : Series :=
  fun i =>
    let horiz_mass_rate := (pm2_5 i * v2_5 + maximum (pm10 i - pm2_5 i) 0 * v10) * fin (dtSec t i)
    horiz_mass_rate * cosd surface_tilt

/-- `accum_mass` of `hsu`, pvlib/soiling.py:84-109. -/
def hsuMass (t : ℕ → ℝ) (rainfall : Series) (cleaning_threshold surface_tilt : Fl) (pm2_5 pm10 : Series)
    (v2_5 v10 : Fl) (rain_accum_period : ℝ) : Series :=
  let accum_rain := rollingSum t rain_accum_period rainfall
  let cleaning_times : ℕ → Prop := fun i => cleaning_threshold ≤ accum_rain i
  let mass_no_cleaning := npCumsum (tiltedMassRate t surface_tilt pm2_5 pm10 v2_5 v10)
  let mass_removed : Series := fun _ => nan
  let mass_removed := setFirst mass_removed 0
  let mass_removed := setMask mass_removed cleaning_times mass_no_cleaning
  fun i => mass_no_cleaning i - ffill mass_removed i

/-- `hsu`, pvlib/soiling.py:13-113; `rain_accum_period` in seconds. -/
def hsu (t : ℕ → ℝ) (rainfall : Series) (cleaning_threshold surface_tilt : Fl) (pm2_5 pm10 : Series)
    (v2_5 : Fl := 0.0009) (v10 : Fl := 0.004) (rain_accum_period : ℝ := 3600) : Series := fun i =>
  let accum_mass := hsuMass t rainfall cleaning_threshold surface_tilt pm2_5 pm10 v2_5 v10
    rain_accum_period i
  1 - 0.3437 * erf (0.17 * rpow accum_mass 0.8473)

/-- A boolean as 0/1 (what `rolling` makes of it). (Used for pvlib/soiling.py:198-211.) -/
def boolFl (b : Prop) : Fl := if b then 1 else 0

/-- The grace windows of `kimber`, pvlib/soiling.py:198-211. -/
def graceWindows (t : ℕ → ℝ) (rainfall : Series) (cleaning_threshold : Fl)
    (grace_period rain_accum_period : ℝ) : ℕ → Prop :=
  let accumulated_rainfall := rollingSum t (rain_accum_period * 3600) rainfall
  let rain_events : ℕ → Prop := fun i => cleaning_threshold < accumulated_rainfall i
  fun i => 0 < rollingSum t (grace_period * 86400) (fun j => boolFl (rain_events j)) i

/-- `kimber`, pvlib/soiling.py:116-229; `grace_period` in days, `rain_accum_period` in hours, `t` in
seconds.  `wash` are the positions of `manual_wash_dates` in the index (`None`: nowhere; dates outside
the index raise a KeyError and are excluded). -/
def kimber (t : ℕ → ℝ) (rainfall : Series) (cleaning_threshold : Fl := 6)
    (soiling_loss_rate : Fl := 0.0015) (grace_period : ℝ := 14) (max_soiling : Fl := 0.3)
    (wash : ℕ → Prop := fun _ => False) (initial_soiling : Fl := 0) (rain_accum_period : ℝ := 24) :
    Series :=
  let day_fraction : Fl := fin ((t 1 - t 0) / 86400)
  let soiling : Series := fun _ => 1 * soiling_loss_rate * day_fraction
  let soiling := setFirst soiling initial_soiling
  let soiling := npCumsum soiling
  let grace_windows := graceWindows t rainfall cleaning_threshold grace_period rain_accum_period
  let cleaning : Series := fun _ => nan
  let cleaning := setFirst cleaning 0
  let cleaning := setMask cleaning grace_windows soiling
  let cleaning := setMask cleaning wash soiling
  let soiling : Series := fun i => soiling i - ffill cleaning i
  fun i => if soiling i < max_soiling then soiling i else max_soiling

end Pvlib.Soiling
end
