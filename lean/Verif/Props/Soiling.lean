import Verif.Props.TrigValues
import Verif.Model.SnowSoiling
import Verif.Props.Spec

/-! # Properties C11, C12: soiling -/

noncomputable section
open scoped Classical
open Real MeasureTheory
namespace Pvlib.Props.Soiling
open Fl Pvlib.Tools Pvlib.Soiling Series Pvlib.Spec

/-! ## Specification -/

/-- Rain in the window `(t_i - period, t_i]`. -/
def rainIn (t : ℕ → ℝ) (period : ℝ) (rain : ℕ → ℝ) (i : ℕ) : ℝ :=
  ∑ j ∈ (Finset.range (i + 1)).filter (fun j => t i - period < t j), rain j

/-- `kimber`'s cleaning condition at step `i`: it is a wash date, or some step within the grace period
before (or at) `i` had more rain in its accumulation window than the threshold. -/
def Cleaned (t : ℕ → ℝ) (rain : ℕ → ℝ) (thr graceDays accumHours : ℝ) (wash : ℕ → Prop) (i : ℕ) : Prop :=
  wash i ∨ ∃ j ≤ i, t i - graceDays * 86400 < t j ∧ thr < rainIn t (accumHours * 3600) rain j

/-- The day-by-day recurrence of the Kimber model. -/
def soil (cleaned : ℕ → Prop) (step cap init : ℝ) : ℕ → ℝ
  | 0 => if cleaned 0 then 0 else min cap init
  | i + 1 => if cleaned (i + 1) then 0 else min cap (soil cleaned step cap init i + step)

/-- Dust mass on the module: emptied by a cleaning, otherwise growing by the deposition. -/
def mass (cleaned : ℕ → Prop) (dep : ℕ → ℝ) : ℕ → ℝ
  | 0 => if cleaned 0 then 0 else dep 0
  | i + 1 => if cleaned (i + 1) then 0 else mass cleaned dep i + dep (i + 1)

/-! ## Rolling sums -/

private theorem foldl_fin (l : List ℕ) (f : ℕ → ℝ) (a : ℝ) :
    l.foldl (fun a j => a + fin (f j)) (fin a) = fin (a + (l.map f).sum) := by
  induction l generalizing a with
  | nil => simp
  | cons x l ih => simp [ih, add_assoc]

/-- The rolling sum of a real series is the sum over the window `(t_i - period, t_i]`. -/
theorem rollingSum_fin (t : ℕ → ℝ) (period : ℝ) (hp : 0 < period) (x : ℕ → ℝ) (i : ℕ) :
    rollingSum t period (fun j => fin (x j)) i = fin (rainIn t period x i) := by
  have hmem : i ∈ (List.range (i + 1)).filter (fun j => decide (t i - period < t j ∧ fin (x j) ≠ nan)) := by
    simp [hp]
  simp only [rollingSum]
  rw [if_neg (List.ne_nil_of_mem hmem), show (0 : Fl) = fin 0 from rfl, foldl_fin, zero_add, rainIn]
  congr 1
  have : (Finset.range (i + 1)).filter (fun j => t i - period < t j)
      = ((List.range (i + 1)).filter (fun j => decide (t i - period < t j ∧ fin (x j) ≠ nan))).toFinset := by
    ext j; simp
  rw [this, List.sum_toFinset]
  exact (List.nodup_range).filter _

example := rollingSum_fin (fun i => (i : ℝ) * 3600) 86400 (by norm_num) (fun i => (i : ℝ)) 30

private theorem grace_iff (t : ℕ → ℝ) (rain : ℕ → ℝ) (thr graceDays accumHours : ℝ) (hA : 0 < accumHours)
    (i : ℕ) :
    graceWindows t (fun j => fin (rain j)) (fin thr) graceDays accumHours i
      ↔ ∃ j ≤ i, t i - graceDays * 86400 < t j ∧ thr < rainIn t (accumHours * 3600) rain j := by
  have hA' : 0 < accumHours * 3600 := by positivity
  have e : (fun j => boolFl (fin thr < rollingSum t (accumHours * 3600) (fun j => fin (rain j)) j))
      = fun j => fin (if thr < rainIn t (accumHours * 3600) rain j then 1 else 0) := by
    funext j
    rw [rollingSum_fin t _ hA', boolFl]
    split_ifs <;> simp_all
  simp only [graceWindows]
  rw [e]
  simp only [rollingSum]
  split_ifs with hw
  · simp only [zero_eq, lt_nan, false_iff, not_exists, not_and]
    intro j hj h1
    rw [List.filter_eq_nil_iff] at hw
    have := hw j (by simp; omega)
    simp [h1] at this
  · rw [show (0 : Fl) = fin 0 from rfl, foldl_fin, zero_add, fin_lt]
    constructor
    · intro h
      by_contra hno
      push Not at hno
      apply absurd h
      rw [not_lt]
      apply le_of_eq
      apply List.sum_eq_zero
      intro y hy
      simp only [List.mem_map, List.mem_filter, List.mem_range, decide_eq_true_eq] at hy
      obtain ⟨j, ⟨hj, hj1, -⟩, rfl⟩ := hy
      rw [if_neg (not_lt.mpr (hno j (by omega) hj1))]
    · rintro ⟨j, hj, h1, h2⟩
      have hm : (1 : ℝ) ∈ ((List.range (i + 1)).filter (fun j => decide (t i - graceDays * 86400 < t j ∧
          fin (if thr < rainIn t (accumHours * 3600) rain j then 1 else 0) ≠ nan))).map
          (fun j => if thr < rainIn t (accumHours * 3600) rain j then (1 : ℝ) else 0) := by
        simp only [List.mem_map, List.mem_filter, List.mem_range, decide_eq_true_eq]
        exact ⟨j, ⟨by omega, h1, by simp⟩, by simp [h2]⟩
      exact lt_of_lt_of_le one_pos (List.single_le_sum (by
        intro y hy
        simp only [List.mem_map] at hy
        obtain ⟨k, -, rfl⟩ := hy
        split_ifs <;> norm_num) _ hm)

/-! ## Kimber -/

private def raw (step init : ℝ) (i : ℕ) : ℝ := init + i * step

private theorem cumsum_raw (step init : ℝ) (i : ℕ) :
    npCumsum (setFirst (fun _ => fin step) (fin init)) i = fin (raw step init i) := by
  induction i with
  | zero => simp [npCumsum, setFirst, raw]
  | succ i ih => rw [npCumsum, ih]; simp [setFirst, raw]; ring

private def removed (c : ℕ → Prop) (s : ℕ → ℝ) : ℕ → ℝ
  | 0 => if c 0 then s 0 else 0
  | i + 1 => if c (i + 1) then s (i + 1) else removed c s i

private theorem ffill_removed (g w : ℕ → Prop) (s : ℕ → ℝ) (i : ℕ) :
    ffill (setMask (setMask (setFirst (fun _ => nan) 0) g (fun j => fin (s j))) w (fun j => fin (s j))) i
      = fin (removed (fun j => w j ∨ g j) s i) := by
  induction i with
  | zero => by_cases h : w 0 <;> by_cases h' : g 0 <;> simp [ffill, setMask, setFirst, removed, h, h']
  | succ i ih =>
    rw [ffill, ih]
    by_cases h : w (i + 1) <;> by_cases h' : g (i + 1) <;>
      simp [setMask, setFirst, removed, h, h']

/-- **C11**.  `kimber` is the recurrence `soil`: zero at every cleaned step, otherwise the previous
value plus the loss of one step, never above the cap.  Any rainfall, any index (the step is taken from
the first interval, as in the code). -/
theorem kimber_recurrence (t : ℕ → ℝ) (ht : t 0 ≤ t 1) (rain : ℕ → ℝ) (thr rate grace cap init accum : ℝ)
    (hr : 0 ≤ rate) (hcap : 0 ≤ cap) (hA : 0 < accum) (wash : ℕ → Prop) (i : ℕ) :
    kimber t (fun j => fin (rain j)) (fin thr) (fin rate) grace (fin cap) wash (fin init) accum i
      = fin (soil (Cleaned t rain thr grace accum wash) (rate * ((t 1 - t 0) / 86400)) cap init i) := by
  set step := rate * ((t 1 - t 0) / 86400) with hstep
  have hstep0 : 0 ≤ step := mul_nonneg hr (div_nonneg (by linarith) (by norm_num))
  have hsoil : npCumsum (setFirst (fun _ => 1 * fin rate * fin ((t 1 - t 0) / 86400)) (fin init))
      = fun j => fin (raw step init j) := by
    funext j
    rw [← cumsum_raw]
    simp [hstep]
  have hc : (fun j => wash j ∨ graceWindows t (fun j => fin (rain j)) (fin thr) grace accum j)
      = Cleaned t rain thr grace accum wash := by
    funext j
    rw [grace_iff t rain thr grace accum hA]; rfl
  simp only [kimber]
  rw [hsoil, ffill_removed, hc]
  set c := Cleaned t rain thr grace accum wash
  have key : ∀ i, min cap (raw step init i - removed c (raw step init) i) = soil c step cap init i := by
    intro i
    induction i with
    | zero => by_cases h : c 0 <;> simp [removed, soil, h, hcap, raw]
    | succ i ih =>
      by_cases h : c (i + 1)
      · simp [removed, soil, h, hcap]
      · simp only [removed, soil, h, if_false, ← ih]
        have e : raw step init (i + 1) = raw step init i + step := by simp [raw]; ring
        rw [e]
        rcases le_total cap (raw step init i - removed c (raw step init) i) with h1 | h1
        · rw [min_eq_left h1, min_eq_left (by linarith), min_eq_left (by linarith)]
        · rw [min_eq_right h1]; congr 1; ring
  rw [← key]
  by_cases h : raw step init i - removed c (raw step init) i < cap
  · simp [h, h.le]
  · simp [h, not_lt.mp h]

example := kimber_recurrence (fun i => (i : ℝ) * 86400) (by norm_num) (fun i => if i = 3 then 10 else 0) 6 0.0015 14 0.3 0.01 24
  (by norm_num) (by norm_num) (by norm_num) (fun i => i = 20) 40

/-- **C11**: the soiling is always between 0 and the cap. -/
theorem kimber_range (t : ℕ → ℝ) (ht : t 0 ≤ t 1) (rain : ℕ → ℝ) (thr rate grace cap init accum : ℝ)
    (hr : 0 ≤ rate) (hcap : 0 ≤ cap) (hi : 0 ≤ init) (hA : 0 < accum) (wash : ℕ → Prop) (i : ℕ) :
    ∃ s, kimber t (fun j => fin (rain j)) (fin thr) (fin rate) grace (fin cap) wash (fin init) accum i
      = fin s ∧ 0 ≤ s ∧ s ≤ cap := by
  refine ⟨_, kimber_recurrence t ht rain thr rate grace cap init accum hr hcap hA wash i, ?_⟩
  have hstep0 : 0 ≤ rate * ((t 1 - t 0) / 86400) :=
    mul_nonneg hr (div_nonneg (by linarith) (by norm_num))
  induction i with
  | zero =>
    simp only [soil]; split_ifs
    · exact ⟨le_rfl, hcap⟩
    · exact ⟨le_min hcap hi, min_le_left _ _⟩
  | succ i ih =>
    simp only [soil]; split_ifs
    · exact ⟨le_rfl, hcap⟩
    · exact ⟨le_min hcap (by linarith [ih.1]), min_le_left _ _⟩

/-- The hypotheses of the Kimber theorems hold for a daily index and the default parameters; a rain of
10 mm on day 3 cleans day 3 and is still in its grace period on day 10. -/
example : Cleaned (fun i => (i : ℝ) * 86400) (fun i => if i = 3 then 10 else 0) 6 14 24
    (fun _ => False) 10 ∧ ¬ Cleaned (fun i => (i : ℝ) * 86400) (fun i => if i = 3 then 10 else 0) 6 14 24
    (fun _ => False) 2 := by
  constructor
  · refine Or.inr ⟨3, by norm_num, by norm_num, ?_⟩
    simp [rainIn]; norm_num
  · rintro (h | ⟨j, hj, -, h⟩)
    · exact h
    · have : rainIn (fun i => (i : ℝ) * 86400) (24 * 3600) (fun i => if i = 3 then 10 else 0) j = 0 := by
        apply Finset.sum_eq_zero
        intro k hk
        simp only [Finset.mem_filter, Finset.mem_range] at hk
        rw [if_neg (by omega)]
      rw [this] at h; norm_num at h

/-! ## HSU -/

private theorem integrable_gauss : Integrable (fun s : ℝ => Real.exp (-1 * s ^ 2)) :=
  integrable_exp_neg_mul_sq one_pos

theorem rerf_zero : rerf 0 = 0 := by simp [rerf]

theorem rerf_mono {x y : ℝ} (h : x ≤ y) : rerf x ≤ rerf y := by
  have hc : (0 : ℝ) ≤ 2 / √π := by positivity
  unfold rerf
  apply mul_le_mul_of_nonneg_left _ hc
  rw [← intervalIntegral.integral_add_adjacent_intervals (a := 0) (b := x) (c := y)
    integrable_gauss.intervalIntegrable integrable_gauss.intervalIntegrable]
  have : 0 ≤ ∫ s in x..y, Real.exp (-1 * s ^ 2) :=
    intervalIntegral.integral_nonneg h (fun _ _ => (Real.exp_pos _).le)
  linarith

theorem rerf_le_one (x : ℝ) : rerf x ≤ 1 := by
  have hp : 0 < √π := Real.sqrt_pos.mpr Real.pi_pos
  rcases le_total x 0 with h | h
  · have := rerf_mono h; rw [rerf_zero] at this; linarith
  · have h1 : ∫ s in (0 : ℝ)..x, Real.exp (-1 * s ^ 2) ≤ √π / 2 := by
      have h2 := integral_gaussian_Ioi 1
      rw [div_one] at h2
      rw [← h2, intervalIntegral.integral_of_le h]
      exact setIntegral_mono_set integrable_gauss.integrableOn
        (Filter.Eventually.of_forall fun _ => (Real.exp_pos _).le)
        (Filter.Eventually.of_forall fun _ h => h.1)
    unfold rerf
    calc 2 / √π * _ ≤ 2 / √π * (√π / 2) := mul_le_mul_of_nonneg_left h1 (by positivity)
      _ = 1 := by field_simp

theorem rerf_strictMono {x y : ℝ} (h : x < y) : rerf x < rerf y := by
  have hc : (0 : ℝ) < 2 / √π := by have := Real.pi_pos; positivity
  unfold rerf
  apply mul_lt_mul_of_pos_left _ hc
  rw [← intervalIntegral.integral_add_adjacent_intervals (a := 0) (b := x) (c := y)
    integrable_gauss.intervalIntegrable integrable_gauss.intervalIntegrable]
  have : 0 < ∫ s in x..y, Real.exp (-1 * s ^ 2) :=
    intervalIntegral.intervalIntegral_pos_of_pos integrable_gauss.intervalIntegrable
      (fun _ => Real.exp_pos _) h
  linarith

theorem rerf_lt_one (x : ℝ) : rerf x < 1 :=
  lt_of_lt_of_le (rerf_strictMono (lt_add_one x)) (rerf_le_one _)

/-- The dust that settles on the tilted module in one step (g/m²). -/
def deposition (t : ℕ → ℝ) (tilt : ℝ) (pm25 pm10 : ℕ → ℝ) (v25 v10 : ℝ) (i : ℕ) : ℝ :=
  (pm25 i * v25 + max (pm10 i - pm25 i) 0 * v10) * dtSec t i * cosDeg tilt

/-- `hsu`'s cleaning condition: the rain in the accumulation window reaches the threshold. -/
def Washed (t : ℕ → ℝ) (rain : ℕ → ℝ) (thr period : ℝ) (i : ℕ) : Prop := thr ≤ rainIn t period rain i

private theorem rate_fin (t : ℕ → ℝ) (tilt : ℝ) (pm25 pm10 : ℕ → ℝ) (v25 v10 : ℝ) (i : ℕ) :
    tiltedMassRate t (fin tilt) (fun j => fin (pm25 j)) (fun j => fin (pm10 j)) (fin v25) (fin v10) i
      = fin (deposition t tilt pm25 pm10 v25 v10 i) := by
  simp [tiltedMassRate, deposition, cosDeg, rad]

/-- The accumulated mass of `hsu` is the emptied-or-accumulated recurrence. -/
theorem hsuMass_eq (t : ℕ → ℝ) (rain : ℕ → ℝ) (thr tilt : ℝ) (pm25 pm10 : ℕ → ℝ) (v25 v10 period : ℝ)
    (hp : 0 < period) (i : ℕ) :
    hsuMass t (fun j => fin (rain j)) (fin thr) (fin tilt) (fun j => fin (pm25 j)) (fun j => fin (pm10 j))
      (fin v25) (fin v10) period i
      = fin (mass (Washed t rain thr period) (deposition t tilt pm25 pm10 v25 v10) i) := by
  set dep := deposition t tilt pm25 pm10 v25 v10 with hdep
  set c := Washed t rain thr period with hcdef
  let tot : ℕ → ℝ := fun i => ∑ j ∈ Finset.range (i + 1), dep j
  have htot : npCumsum (tiltedMassRate t (fin tilt) (fun j => fin (pm25 j)) (fun j => fin (pm10 j))
      (fin v25) (fin v10)) = fun j => fin (tot j) := by
    funext j
    induction j with
    | zero => simp [npCumsum, rate_fin, tot, hdep]
    | succ j ih => rw [npCumsum, ih, rate_fin]; simp [tot, Finset.sum_range_succ _ (j + 1), hdep]
  have hcl : ∀ j, (fin thr ≤ rollingSum t period (fun j => fin (rain j)) j) = c j := by
    intro j; rw [rollingSum_fin t period hp]; rfl
  simp only [hsuMass, htot, hcl]
  have h := ffill_removed c (fun _ => False) tot i
  have e : setMask (setMask (setFirst (fun _ => nan) 0) c (fun j => fin (tot j))) (fun _ => False)
      (fun j => fin (tot j)) = setMask (setFirst (fun _ => nan) 0) c (fun j => fin (tot j)) := by
    funext j; simp [setMask]
  rw [e] at h
  rw [h, fin_sub]
  congr 1
  have hcc : (fun j => False ∨ c j) = c := by funext j; simp
  rw [hcc]
  clear h e
  induction i with
  | zero => by_cases h0 : c 0 <;> simp [removed, mass, h0, tot]
  | succ i ih =>
    by_cases h0 : c (i + 1)
    · simp [removed, mass, h0]
    · simp only [removed, mass, h0, if_false, ← ih]
      simp only [tot, Finset.sum_range_succ _ (i + 1)]; ring

example := hsuMass_eq (fun i => (i : ℝ) * 3600) (fun i => if i = 2 then 1 else 0) 0.5 20 (fun _ => 1e-5) (fun _ => 3e-5) 0.0009 0.004
  3600 (by norm_num) 5
/-- Hourly time stamps, for the examples. -/
theorem hourly_mono : Monotone (fun i : ℕ => (i : ℝ) * 3600) := fun a b h => by
  have : (a : ℝ) ≤ b := by exact_mod_cast h
  simp only; nlinarith

private theorem dep_nonneg (t : ℕ → ℝ) (ht : Monotone t) (tilt : ℝ) (pm25 pm10 : ℕ → ℝ) (v25 v10 : ℝ)
    (hpm : ∀ j, 0 ≤ pm25 j) (hv : 0 ≤ v25) (hv' : 0 ≤ v10) (htilt : 0 ≤ cosDeg tilt) (i : ℕ) :
    0 ≤ deposition t tilt pm25 pm10 v25 v10 i := by
  have hd : 0 ≤ dtSec t i := by
    cases i <;> simp only [dtSec, sub_nonneg] <;> exact ht (by omega)
  unfold deposition
  have := hpm i
  have : 0 ≤ max (pm10 i - pm25 i) 0 := le_max_right _ _
  positivity

private theorem mass_nonneg (c : ℕ → Prop) (dep : ℕ → ℝ) (h : ∀ i, 0 ≤ dep i) (i : ℕ) :
    0 ≤ mass c dep i := by
  induction i with
  | zero => simp only [mass]; split_ifs <;> [exact le_rfl; exact h 0]
  | succ i ih => simp only [mass]; split_ifs <;> [exact le_rfl; linarith [h (i + 1)]]

/-- **C12**, value: `hsu` is `1 - 0.3437 erf(0.17 m^0.8473)` of the recurrence's mass `m`. -/
theorem hsu_value (t : ℕ → ℝ) (ht : Monotone t) (rain : ℕ → ℝ) (thr tilt : ℝ) (pm25 pm10 : ℕ → ℝ)
    (v25 v10 period : ℝ) (hp : 0 < period) (hpm : ∀ j, 0 ≤ pm25 j) (hv : 0 ≤ v25) (hv' : 0 ≤ v10)
    (htilt : 0 ≤ cosDeg tilt) (i : ℕ) :
    hsu t (fun j => fin (rain j)) (fin thr) (fin tilt) (fun j => fin (pm25 j)) (fun j => fin (pm10 j))
      (fin v25) (fin v10) period i
      = fin (1 - 0.3437 * rerf (0.17 *
          (mass (Washed t rain thr period) (deposition t tilt pm25 pm10 v25 v10) i) ^ (0.8473 : ℝ))) := by
  have hm := mass_nonneg (Washed t rain thr period) _
    (dep_nonneg t ht tilt pm25 pm10 v25 v10 hpm hv hv' htilt) i
  simp only [hsu, hsuMass_eq t rain thr tilt pm25 pm10 v25 v10 period hp i]
  simp only [ofScientific_eq, one_eq]
  rw [rpow_fin_nonneg hm (by norm_num)]
  simp [erf]

example := hsu_value (fun i => (i : ℝ) * 3600) hourly_mono (fun i => if i = 2 then 1 else 0) 0.5 20 (fun _ => 1e-5) (fun _ => 3e-5)
  0.0009 0.004 3600 (by norm_num) (by norm_num) (by norm_num) (by norm_num) (cosDeg_pos_of (by norm_num) (by norm_num)).le 5

/-- **C12**, reset: 1 right at every cleaning. -/
theorem hsu_cleaned (t : ℕ → ℝ) (rain : ℕ → ℝ) (thr tilt : ℝ) (pm25 pm10 : ℕ → ℝ)
    (v25 v10 period : ℝ) (hp : 0 < period) (i : ℕ) (hc : Washed t rain thr period i) :
    hsu t (fun j => fin (rain j)) (fin thr) (fin tilt) (fun j => fin (pm25 j)) (fun j => fin (pm10 j))
      (fin v25) (fin v10) period i = fin 1 := by
  have h0 : mass (Washed t rain thr period) (deposition t tilt pm25 pm10 v25 v10) i = 0 := by
    cases i <;> simp [mass, hc]
  simp only [hsu, hsuMass_eq t rain thr tilt pm25 pm10 v25 v10 period hp i, h0]
  simp only [ofScientific_eq, one_eq]
  rw [Fl.rpow_zero_pos (by norm_num)]
  simp [erf, rerf_zero]

example := hsu_cleaned (fun i => (i : ℝ) * 3600) (fun i => if i = 2 then 1 else 0) 0.5 20 (fun _ => 1e-5) (fun _ => 3e-5)
  0.0009 0.004 3600 (by norm_num) 2 (by simp [Washed, rainIn]; norm_num)

/-- **C12**, range: the ratio is in `(1 - 0.3437, 1]`. -/
theorem hsu_range (t : ℕ → ℝ) (ht : Monotone t) (rain : ℕ → ℝ) (thr tilt : ℝ) (pm25 pm10 : ℕ → ℝ)
    (v25 v10 period : ℝ) (hp : 0 < period) (hpm : ∀ j, 0 ≤ pm25 j) (hv : 0 ≤ v25) (hv' : 0 ≤ v10)
    (htilt : 0 ≤ cosDeg tilt) (i : ℕ) :
    ∃ s, hsu t (fun j => fin (rain j)) (fin thr) (fin tilt) (fun j => fin (pm25 j))
      (fun j => fin (pm10 j)) (fin v25) (fin v10) period i = fin s ∧ 1 - 0.3437 < s ∧ s ≤ 1 := by
  have hm := mass_nonneg (Washed t rain thr period) _
    (dep_nonneg t ht tilt pm25 pm10 v25 v10 hpm hv hv' htilt) i
  refine ⟨_, hsu_value t ht rain thr tilt pm25 pm10 v25 v10 period hp hpm hv hv' htilt i, ?_, ?_⟩
  · have := rerf_lt_one (0.17 *
      (mass (Washed t rain thr period) (deposition t tilt pm25 pm10 v25 v10) i) ^ (0.8473 : ℝ))
    nlinarith
  · have : rerf 0 ≤ rerf (0.17 *
      (mass (Washed t rain thr period) (deposition t tilt pm25 pm10 v25 v10) i) ^ (0.8473 : ℝ)) :=
      rerf_mono (mul_nonneg (by norm_num) (Real.rpow_nonneg hm _))
    rw [rerf_zero] at this
    nlinarith

example := hsu_range (fun i => (i : ℝ) * 3600) hourly_mono (fun i => if i = 2 then 1 else 0) 0.5 20 (fun _ => 1e-5) (fun _ => 3e-5)
  0.0009 0.004 3600 (by norm_num) (by norm_num) (by norm_num) (by norm_num) (cosDeg_pos_of (by norm_num) (by norm_num)).le 5

/-- **C12**, monotone: between cleanings the ratio never increases. -/
theorem hsu_decreases (t : ℕ → ℝ) (ht : Monotone t) (rain : ℕ → ℝ) (thr tilt : ℝ) (pm25 pm10 : ℕ → ℝ)
    (v25 v10 period : ℝ) (hp : 0 < period) (hpm : ∀ j, 0 ≤ pm25 j) (hv : 0 ≤ v25) (hv' : 0 ≤ v10)
    (htilt : 0 ≤ cosDeg tilt) (i : ℕ) (hc : ¬ Washed t rain thr period (i + 1)) :
    hsu t (fun j => fin (rain j)) (fin thr) (fin tilt) (fun j => fin (pm25 j))
      (fun j => fin (pm10 j)) (fin v25) (fin v10) period (i + 1)
    ≤ hsu t (fun j => fin (rain j)) (fin thr) (fin tilt) (fun j => fin (pm25 j))
      (fun j => fin (pm10 j)) (fin v25) (fin v10) period i := by
  have hdep := dep_nonneg t ht tilt pm25 pm10 v25 v10 hpm hv hv' htilt
  have hm := mass_nonneg (Washed t rain thr period) _ hdep i
  rw [hsu_value t ht rain thr tilt pm25 pm10 v25 v10 period hp hpm hv hv' htilt,
    hsu_value t ht rain thr tilt pm25 pm10 v25 v10 period hp hpm hv hv' htilt, fin_le]
  have h1 : mass (Washed t rain thr period) (deposition t tilt pm25 pm10 v25 v10) i
      ≤ mass (Washed t rain thr period) (deposition t tilt pm25 pm10 v25 v10) (i + 1) := by
    simp only [mass, hc, if_false]; linarith [hdep (i + 1)]
  have h2 := Real.rpow_le_rpow hm h1 (show (0 : ℝ) ≤ 0.8473 by norm_num)
  have h3 := rerf_mono (mul_le_mul_of_nonneg_left h2 (show (0 : ℝ) ≤ 0.17 by norm_num))
  nlinarith

/-- Non-vacuity of C12: hourly steps, constant pollution, 20 degrees of tilt; one dry and one rainy
hour. -/
example : Monotone (fun i : ℕ => (i : ℝ) * 3600) ∧ 0 ≤ cosDeg 20 ∧
    Washed (fun i => (i : ℝ) * 3600) (fun i => if i = 2 then 1 else 0) 0.5 3600 2 ∧
    ¬ Washed (fun i => (i : ℝ) * 3600) (fun i => if i = 2 then 1 else 0) 0.5 3600 1 := by
  refine ⟨fun a b h => by
    have : (a : ℝ) ≤ b := by exact_mod_cast h
    simp only; nlinarith, ?_, ?_, ?_⟩
  · apply Real.cos_nonneg_of_neg_pi_div_two_le_of_le <;> (try unfold rad) <;> nlinarith [Real.pi_pos]
  · simp [Washed, rainIn]; norm_num
  · simp only [Washed, not_le, rainIn]
    rw [Finset.sum_eq_zero]
    · norm_num
    · intro k hk
      simp only [Finset.mem_filter, Finset.mem_range] at hk
      rw [if_neg (by omega)]

end Pvlib.Props.Soiling
end
