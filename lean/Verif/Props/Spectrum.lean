import Verif.Props.Atmosphere
import Verif.Model.Spectrum
import Verif.Props.Spec
import Mathlib.Analysis.SpecialFunctions.Pow.Real

/-! # Properties C73-C75: spectral mismatch, spectral factors, spectral response -/

noncomputable section
open scoped Classical
namespace Pvlib.Props.Spectrum
open Fl Pvlib.Spectrum

/-! ### Specification in real numbers -/

/-- A tabulated function: wavelength and value, in real numbers. -/
abbrev Tab := List (ℝ × ℝ)

/-- As pvlib sees it. -/
def lift (t : Tab) : Spec := t.map fun p => (p.1, fin p.2)

/-- Strictly increasing wavelengths. -/
def Increasing (t : Tab) : Prop := t.Pairwise fun p q => p.1 < q.1

/-- The trapezoidal integral. -/
def integral : Tab → ℝ
  | (x0, y0) :: (x1, y1) :: t => (x1 - x0) * (y0 + y1) / 2 + integral ((x1, y1) :: t)
  | _ => 0

/-- The table as a function: piecewise linear inside, zero outside. -/
def value : Tab → ℝ → ℝ
  | [], _ => 0
  | [(x0, y0)], x => if x = x0 then y0 else 0
  | (x0, y0) :: (x1, y1) :: t, x =>
      if x < x0 then 0 else if x = x0 then y0 else if x < x1 then y0 + (y1 - y0) / (x1 - x0) * (x - x0)
      else value ((x1, y1) :: t) x

/-- Pointwise product with a tabulated response. -/
def times (e : Tab) (sr : Tab) : Tab := e.map fun p => (p.1, p.2 * value sr p.1)

/-- Multiply the values by a constant. -/
def scale (c : ℝ) (t : Tab) : Tab := t.map fun p => (p.1, c * p.2)

/-! ### The specification function is what it claims to be -/

theorem value_node {t : Tab} (h : Increasing t) : ∀ p ∈ t, value t p.1 = p.2 := by
  induction t with
  | nil => simp
  | cons a t ih =>
    obtain ⟨x0, y0⟩ := a
    have ht := List.pairwise_cons.mp h
    intro p hp
    cases t with
    | nil => simp only [List.mem_singleton] at hp; subst hp; simp [value]
    | cons b t =>
      obtain ⟨x1, y1⟩ := b
      rcases List.mem_cons.mp hp with rfl | hp
      · simp [value]
      · have h1 := ht.1 p hp
        have hx1 : x1 ≤ p.1 := by
          rcases List.mem_cons.mp hp with rfl | hp'
          · exact le_rfl
          · exact ((List.pairwise_cons.mp ht.2).1 p hp').le
        simp only [value]
        rw [if_neg (not_lt.mpr h1.le), if_neg (ne_of_gt h1), if_neg (not_lt.mpr hx1)]
        exact ih ht.2 p hp

example : value [(300, 1), (600, 2), (900, 1)] 600 = 2 :=
  value_node (t := [(300, 1), (600, 2), (900, 1)]) (by simp [Increasing]; norm_num) (600, 2) (by simp)

theorem value_left {x0 y0 x : ℝ} {t : Tab} (hx : x < x0) : value ((x0, y0) :: t) x = 0 := by
  cases t with
  | nil => simp [value, hx.ne]
  | cons b t => obtain ⟨x1, y1⟩ := b; simp [value, hx]

example := value_left (x0 := 300) (y0 := 1) (x := 250) (t := [(600, 2)]) (by norm_num)

theorem value_right {t : Tab} {x : ℝ} (h : ∀ p ∈ t, p.1 < x) : value t x = 0 := by
  induction t with
  | nil => simp [value]
  | cons a t ih =>
    obtain ⟨x0, y0⟩ := a
    have h0 : x0 < x := h _ List.mem_cons_self
    cases t with
    | nil => simp [value, h0.ne']
    | cons b t =>
      obtain ⟨x1, y1⟩ := b
      have h1 : x1 < x := h (x1, y1) (by simp)
      simp only [value]
      rw [if_neg (not_lt.mpr h0.le), if_neg h0.ne', if_neg (not_lt.mpr h1.le)]
      exact ih fun p hp => h p (List.mem_cons_of_mem _ hp)

example := value_right (t := [(300, 1), (600, 2)]) (x := 650) (by norm_num)

/-- Between the smallest and the largest of zero and the tabulated values. -/
theorem value_range {t : Tab} (h : Increasing t) {m M : ℝ} (hm : m ≤ 0) (hM : 0 ≤ M) (ht : ∀ p ∈ t, m ≤ p.2 ∧ p.2 ≤ M)
    (x : ℝ) : m ≤ value t x ∧ value t x ≤ M := by
  induction t with
  | nil => simp [value, hm, hM]
  | cons a t ih =>
    obtain ⟨x0, y0⟩ := a
    have hp := List.pairwise_cons.mp h
    have h0 := ht (x0, y0) List.mem_cons_self
    cases t with
    | nil => simp only [value]; split_ifs <;> simp_all
    | cons b t =>
      obtain ⟨x1, y1⟩ := b
      have h1 := ht (x1, y1) (by simp)
      have hlt : x0 < x1 := hp.1 (x1, y1) List.mem_cons_self
      simp only [value]
      split_ifs with c1 c2 c3
      · exact ⟨hm, hM⟩
      · exact h0
      · have d : 0 < x1 - x0 := by linarith
        have e : y0 + (y1 - y0) / (x1 - x0) * (x - x0) = (y0 * (x1 - x) + y1 * (x - x0)) / (x1 - x0) := by field_simp; ring
        have s1 : 0 ≤ x - x0 := by linarith [not_lt.mp c1]
        have s2 : 0 ≤ x1 - x := by linarith
        rw [e, le_div_iff₀ d, div_le_iff₀ d]
        simp only at h0 h1
        constructor
        · have := mul_le_mul_of_nonneg_right h0.1 s2
          have := mul_le_mul_of_nonneg_right h1.1 s1
          linarith
        · have := mul_le_mul_of_nonneg_right h0.2 s2
          have := mul_le_mul_of_nonneg_right h1.2 s1
          linarith
      · exact ih hp.2 fun p hp => ht p (List.mem_cons_of_mem _ hp)

example := value_range (t := [(300, 1), (600, 2), (900, 1)]) (by simp [Increasing]; norm_num) (m := 0) (M := 2) le_rfl (by norm_num)
  (by norm_num) 450

/-! ### Evaluating the model -/

theorem trapezoid_lift (t : Tab) : trapezoid (lift t) = fin (integral t) := by
  induction t with
  | nil => rfl
  | cons a t ih =>
    cases t with
    | nil => rfl
    | cons b t =>
      simp only [lift, List.map_cons] at ih ⊢
      simp only [trapezoid, ih, integral]
      rw [fin_add, fin_mul, ofNat_eq, fin_div (by norm_num), fin_add]

theorem interp0_lift {t : Tab} (h : Increasing t) (x : ℝ) : interp0 (lift t) x = fin (value t x) := by
  induction t with
  | nil => simp [lift, interp0, value]
  | cons a t ih =>
    have hp := List.pairwise_cons.mp h
    cases t with
    | nil =>
      simp only [lift, List.map_cons, List.map_nil, interp0, value]
      split_ifs <;> simp
    | cons b t =>
      have hlt : a.1 < b.1 := hp.1 b List.mem_cons_self
      have hne : b.1 - a.1 ≠ 0 := by linarith
      have := ih hp.2
      simp only [lift, List.map_cons] at this ⊢
      simp only [interp0, value, this]
      split_ifs
      · simp
      · rfl
      · simp only [fin_sub, fin_div hne, fin_mul, fin_add]
      · rfl

theorem weighted_lift {sr : Tab} (h : Increasing sr) (e : Tab) : weighted (lift sr) (lift e) = lift (times e sr) := by
  simp only [weighted, lift, times, List.map_map]
  apply List.map_congr_left
  intro p _
  have := interp0_lift h p.1
  simp only [lift] at this
  simp only [Function.comp, this, fin_mul]

theorem integral_scale (c : ℝ) (t : Tab) : integral (scale c t) = c * integral t := by
  induction t with
  | nil => simp [integral, scale]
  | cons a t ih =>
    cases t with
    | nil => simp [integral, scale]
    | cons b t =>
      simp only [scale, List.map_cons] at ih ⊢
      simp only [integral, ih]
      ring

theorem times_scale (c : ℝ) (e sr : Tab) : times (scale c e) sr = scale c (times e sr) := by
  simp only [times, scale, List.map_map]
  apply List.map_congr_left
  intro p _
  simp only [Function.comp, mul_assoc]

theorem value_scale (c : ℝ) (t : Tab) (x : ℝ) : value (scale c t) x = c * value t x := by
  induction t with
  | nil => simp [value, scale]
  | cons a t ih =>
    cases t with
    | nil => simp only [value, scale, List.map_cons, List.map_nil]; split_ifs <;> simp
    | cons b t =>
      simp only [scale, List.map_cons] at ih ⊢
      simp only [value, ih]
      split_ifs <;> first | ring | simp

theorem increasing_scale {c : ℝ} {t : Tab} (h : Increasing t) : Increasing (scale c t) := by
  unfold Increasing scale
  rw [List.pairwise_map]
  exact h

/-- The integral of a non-negative table is between the bounds times the integral of the weights. -/
theorem integral_mono {t : Tab} (h : Increasing t) (f g : ℝ × ℝ → ℝ) (hfg : ∀ p ∈ t, f p ≤ g p) :
    integral (t.map fun p => (p.1, f p)) ≤ integral (t.map fun p => (p.1, g p)) := by
  induction t with
  | nil => simp [integral]
  | cons a t ih =>
    have hp := List.pairwise_cons.mp h
    cases t with
    | nil => simp [integral]
    | cons b t =>
      have hlt : a.1 < b.1 := hp.1 b List.mem_cons_self
      have h1 := hfg a List.mem_cons_self
      have h2 := hfg b (by simp)
      have h3 := ih hp.2 fun p hp => hfg p (List.mem_cons_of_mem _ hp)
      simp only [List.map_cons] at h3 ⊢
      simp only [integral]
      have := mul_le_mul_of_nonneg_left (add_le_add h1 h2) (show 0 ≤ b.1 - a.1 by linarith)
      linarith

/-! ### C73 -/

/-- The usable fraction of a spectrum: response-weighted integral over integral. -/
def usable (sr e : Tab) : ℝ := integral (times e sr) / integral e

/-- **C73**: the spectral mismatch is the ratio of the usable fractions. -/
theorem mismatch_value {sr e_sun e_ref : Tab} (h : Increasing sr) (h1 : integral e_sun ≠ 0) (h2 : integral e_ref ≠ 0)
    (h3 : integral (times e_ref sr) ≠ 0) :
    mismatchField (lift sr) (lift e_sun) (lift e_ref) = fin (usable sr e_sun / usable sr e_ref) := by
  have h4 : usable sr e_ref ≠ 0 := div_ne_zero h3 h2
  unfold usable at h4 ⊢
  simp only [mismatchField, weighted_lift h, trapezoid_lift, fin_div h1, fin_div h2]
  rw [fin_div h4]

/-- A spectrum and a response on different grids, for the examples. -/
def demoE : Tab := [(300, 1), (600, 2), (900, 1)]
def demoSr : Tab := [(300, 0.2), (900, 0.8)]
theorem demoE_inc : Increasing demoE := by simp [Increasing, demoE]; norm_num
theorem demoSr_inc : Increasing demoSr := by simp [Increasing, demoSr]; norm_num
theorem demoE_pos : 0 < integral demoE := by norm_num [integral, demoE]
theorem demoE_sr : integral (times demoE demoSr) ≠ 0 := by norm_num [integral, times, value, demoE, demoSr]
example := mismatch_value (sr := demoSr) (e_sun := [(300, 1), (900, 3)]) demoSr_inc (by norm_num [integral]) demoE_pos.ne' demoE_sr

/-- **C73**: a spectrum equal to the reference has mismatch one. -/
theorem mismatch_self {sr e : Tab} (h : Increasing sr) (h1 : integral e ≠ 0) (h3 : integral (times e sr) ≠ 0) :
    mismatchField (lift sr) (lift e) (lift e) = fin 1 := by
  rw [mismatch_value h h1 h1 h3, div_self (show usable sr e ≠ 0 from div_ne_zero h3 h1)]

example := mismatch_self demoSr_inc demoE_pos.ne' demoE_sr

/-- **C73**: the mismatch does not depend on the level of the spectra or of the response. -/
theorem mismatch_scale {sr e_sun e_ref : Tab} (h : Increasing sr) (h1 : integral e_sun ≠ 0) (h2 : integral e_ref ≠ 0)
    (h3 : integral (times e_ref sr) ≠ 0) {a b c : ℝ} (ha : a ≠ 0) (hb : b ≠ 0) (hc : c ≠ 0) :
    mismatchField (lift (scale a sr)) (lift (scale b e_sun)) (lift (scale c e_ref)) =
      mismatchField (lift sr) (lift e_sun) (lift e_ref) := by
  have ts : ∀ e : Tab, times e (scale a sr) = scale a (times e sr) := by
    intro e
    simp only [times, scale, List.map_map]
    apply List.map_congr_left
    intro p _
    have := value_scale a sr p.1
    simp only [scale] at this
    simp only [Function.comp, this]
    congr 1; ring
  have g1 : integral (scale b e_sun) ≠ 0 := by rw [integral_scale]; exact mul_ne_zero hb h1
  have g2 : integral (scale c e_ref) ≠ 0 := by rw [integral_scale]; exact mul_ne_zero hc h2
  have g3 : integral (times (scale c e_ref) (scale a sr)) ≠ 0 := by
    rw [ts, times_scale, integral_scale, integral_scale]; exact mul_ne_zero ha (mul_ne_zero hc h3)
  rw [mismatch_value h h1 h2 h3, mismatch_value (increasing_scale h) g1 g2 g3]
  congr 1
  simp only [usable, ts, times_scale, integral_scale]
  field_simp

example := mismatch_scale (sr := demoSr) (e_sun := [(300, 1), (900, 3)]) demoSr_inc (by norm_num [integral]) demoE_pos.ne' demoE_sr
  (a := 2) (b := 3) (c := 5) (by norm_num) (by norm_num) (by norm_num)

/-- **C73**: a flat response over the measured and the reference spectrum gives mismatch one. -/
theorem mismatch_flat {sr e_sun e_ref : Tab} (h : Increasing sr) (h1 : integral e_sun ≠ 0) (h2 : integral e_ref ≠ 0)
    {c : ℝ} (hc : c ≠ 0) (hs : ∀ p ∈ e_sun, value sr p.1 = c) (hr : ∀ p ∈ e_ref, value sr p.1 = c) :
    mismatchField (lift sr) (lift e_sun) (lift e_ref) = fin 1 := by
  have key : ∀ e : Tab, (∀ p ∈ e, value sr p.1 = c) → times e sr = scale c e := by
    intro e he
    simp only [times, scale]
    apply List.map_congr_left
    intro p hp
    rw [he p hp, mul_comm]
  have h3 : integral (times e_ref sr) ≠ 0 := by rw [key _ hr, integral_scale]; exact mul_ne_zero hc h2
  rw [mismatch_value h h1 h2 h3]
  simp only [usable, key _ hs, key _ hr, integral_scale]
  congr 1
  field_simp

example := mismatch_flat (sr := [(200, 0.5), (1000, 0.5)]) (e_sun := demoE) (e_ref := [(300, 1), (900, 3)])
  (by simp [Increasing]; norm_num) demoE_pos.ne' (by norm_num [integral]) (c := 0.5) (by norm_num)
  (by norm_num [demoE, value]) (by norm_num [value])

/-- **C73**: the usable fraction of a non-negative spectrum lies between the bounds of the response. -/
theorem usable_range {sr e : Tab} (he : Increasing e) (hpos : ∀ p ∈ e, 0 ≤ p.2) (h1 : 0 < integral e) {m M : ℝ}
    (hs : ∀ p ∈ e, m ≤ value sr p.1 ∧ value sr p.1 ≤ M) : m ≤ usable sr e ∧ usable sr e ≤ M := by
  have hsc : ∀ c : ℝ, integral (e.map fun p => (p.1, c * p.2)) = c * integral e := fun c => integral_scale c e
  have a1 := integral_mono he (fun p => m * p.2) (fun p => p.2 * value sr p.1) fun p hp => by
    have := mul_le_mul_of_nonneg_right (hs p hp).1 (hpos p hp); linarith
  have a2 := integral_mono he (fun p => p.2 * value sr p.1) (fun p => M * p.2) fun p hp => by
    have := mul_le_mul_of_nonneg_right (hs p hp).2 (hpos p hp); linarith
  rw [hsc] at a1 a2
  unfold usable times
  rw [le_div_iff₀ h1, div_le_iff₀ h1]
  exact ⟨a1, a2⟩

example := usable_range (sr := demoSr) (e := demoE) demoE_inc (by simp [demoE]) demoE_pos (m := 0.2) (M := 0.8)
  (by norm_num [demoE, demoSr, value])

/-- **C73**: without a reference, the tabulated standard is evaluated at the measured wavelengths; a measurement that
is the standard (up to its level) has mismatch one. -/
theorem mismatch_standard {std sr : Tab} (hs : Increasing std) (h : Increasing sr) (ws : List ℝ) {c : ℝ} (hc : c ≠ 0)
    (h1 : integral (ws.map fun w => (w, value std w)) ≠ 0)
    (h3 : integral (times (ws.map fun w => (w, value std w)) sr) ≠ 0) :
    mismatchFieldStd (lift std) (lift sr) (lift (ws.map fun w => (w, c * value std w))) = fin 1 := by
  have e1 : resample (lift std) ((lift (ws.map fun w => (w, c * value std w))).map Prod.fst) =
      lift (ws.map fun w => (w, value std w)) := by
    simp only [resample, lift, List.map_map]
    apply List.map_congr_left
    intro w _
    have := interp0_lift hs w
    simp only [lift] at this
    simp only [Function.comp, this]
  have e2 : (ws.map fun w => (w, c * value std w)) = scale c (ws.map fun w => (w, value std w)) := by
    simp [scale, List.map_map, Function.comp]
  rw [mismatchFieldStd, e1, e2]
  have := mismatch_scale (sr := sr) (e_sun := ws.map fun w => (w, value std w))
    (e_ref := ws.map fun w => (w, value std w)) h h1 h1 h3 one_ne_zero hc one_ne_zero
  have s1 : ∀ t : Tab, scale 1 t = t := fun t => by simp [scale]
  rw [s1, s1] at this
  rw [this, mismatch_self h h1 h3]

example := mismatch_standard demoE_inc demoSr_inc [300, 900] (c := 2) (by norm_num) (by norm_num [integral, value, demoE])
  (by norm_num [integral, value, demoE, demoSr, times])

/-! ### C74: spectral factor models -/

/-- **C74**: which calls are accepted (exactly one of module type and coefficients; known names, in any case for First
Solar, PVSPEC and JRC), and the error otherwise. -/
theorem firstsolar_errors (pw am : Fl) (m : Option String) (c : Option (List Fl)) (a b d e : Fl) :
    (m = none ∧ c = none ∨ m.isSome ∧ c.isSome → firstsolar pw am m c a b d e = .error .typeError) ∧
    (∀ s, m = some s → c = none → (pyLower s ∉ firstsolarTable.map Prod.fst ↔
      firstsolar pw am m c a b d e = .error (.keyError (pyLower s)))) := by
  constructor
  · rintro (⟨rfl, rfl⟩ | ⟨h1, h2⟩)
    · simp [firstsolar, chooseCoeff]
    · obtain ⟨x, rfl⟩ := Option.isSome_iff_exists.mp h1
      obtain ⟨y, rfl⟩ := Option.isSome_iff_exists.mp h2
      simp [firstsolar, chooseCoeff]
  · rintro s rfl rfl
    have hl : ∀ t : List (String × List ℝ), ∀ k, t.lookup k = none ↔ k ∉ t.map Prod.fst := by
      intro t k
      induction t with
      | nil => simp
      | cons x t ih =>
        obtain ⟨x, y⟩ := x
        by_cases hx : k = x
        · subst hx; simp [List.lookup]
        · have hb : (k == x) = false := beq_false_of_ne hx
          rw [List.lookup, hb]; simp [ih, hx]
    rw [← hl]
    simp only [firstsolar, chooseCoeff]
    cases hx : firstsolarTable.lookup (pyLower s) <;> simp

example := (firstsolar_errors (fin 1) (fin 1.5) none none (fin 0.1) (fin 8) (fin 0.58) (fin 10)).1 (Or.inl ⟨rfl, rfl⟩)

/-- **C74**: First Solar clamps air mass to its limits, raises precipitable water to its minimum and gives NaN above
its maximum; in between it evaluates the published expression. -/
theorem firstsolar_value (pw am : ℝ) (c0 c1 c2 c3 c4 c5 lo hi al ah : ℝ) (hlo : 0 < lo) (hal : 0 ≤ al) :
    firstsolar (fin pw) (fin am) none (some [fin c0, fin c1, fin c2, fin c3, fin c4, fin c5]) (fin lo) (fin hi) (fin al) (fin ah) =
      let w := max pw lo
      let x := max (min am ah) al
      if hi < w then .ok nan
      else .ok (fin (c0 + c1 * x + c2 * w + c3 * Real.sqrt x + c4 * Real.sqrt w + c5 * x / Real.sqrt w)) := by
  have hw : 0 < max pw lo := lt_of_lt_of_le hlo (le_max_right _ _)
  have hx : 0 ≤ max (min am ah) al := le_trans hal (le_max_right _ _)
  have hs : Real.sqrt (max pw lo) ≠ 0 := (Real.sqrt_pos.mpr hw).ne'
  simp only [firstsolar, chooseCoeff, maximum_fin, minimum_fin, fin_lt, cf]
  by_cases h : hi < max pw lo
  · simp only [h, if_true, List.getD_cons_zero, List.getD_cons_succ, sqrt_nan, mul_nan, add_nan]
    simp
  · simp only [h, if_false, List.getD_cons_zero, List.getD_cons_succ, sqrt_fin hw.le, sqrt_fin hx, fin_mul, fin_add, fin_div hs]

example := firstsolar_value 1.4 1.5 0.86 (-0.02) (-0.005) 0.1 0.08 (-0.01) 0.1 8 0.58 10 (by norm_num) (by norm_num)

/-- **C74**: names are case-insensitive for First Solar, PVSPEC and JRC. -/
theorem case_insensitive (s s' : String) (h : pyLower s = pyLower s') (c : Option (List Fl)) (x y a b d e : Fl) :
    firstsolar x y (some s) c a b d e = firstsolar x y (some s') c a b d e ∧ pvspec x y (some s) c = pvspec x y (some s') c ∧
    jrc x y (some s) c = jrc x y (some s') c := by
  refine ⟨?_, ?_, ?_⟩ <;> cases c <;> simp [firstsolar, pvspec, jrc, chooseCoeff, h]

example := case_insensitive "CdTe" "cdte" (by decide +kernel) none (fin 1) (fin 1.5) (fin 0.1) (fin 8) (fin 0.58) (fin 10)

/-- **C74**: the SAPM spectral factor is the fourth-degree polynomial floored at zero, and zero where the air mass is
NaN (night). -/
theorem sapmFactor_value (am a0 a1 a2 a3 a4 : ℝ) :
    sapmFactor (fin am) (fin a0) (fin a1) (fin a2) (fin a3) (fin a4) =
      fin (max 0 (a0 + a1 * am + a2 * am ^ 2 + a3 * am ^ 3 + a4 * am ^ 4)) ∧
    ∀ A0 A1 A2 A3 A4, sapmFactor nan A0 A1 A2 A3 A4 = fin 0 := by
  constructor
  · simp only [sapmFactor, zero_eq, fin_mul, fin_add, not_isnan_fin, npwhere_false, maximum_fin]
    congr 2; ring
  · intro A0 A1 A2 A3 A4
    simp only [sapmFactor, mul_nan, nan_add, nan_mul, isnan_nan, npwhere_true, zero_eq, maximum_fin, max_self]

/-- **C74**: the SAPM factor is never negative and never NaN. -/
theorem sapmFactor_nonneg (am A0 A1 A2 A3 A4 : Fl) : 0 ≤ sapmFactor am A0 A1 A2 A3 A4 := by
  unfold sapmFactor
  generalize ((((0 * am + A4) * am + A3) * am + A2) * am + A1) * am + A0 = y
  cases y <;> simp [npwhere, isnan]

/-- **C74**: the JRC factor is one at the reference condition (clear sky, air mass 1.5), for any coefficients; it is
affine in air mass. -/
theorem jrc_value (am kc c0 c1 c2 : ℝ) :
    jrc (fin am) (fin kc) none (some [fin c0, fin c1, fin c2]) =
      .ok (fin (1 + c0 * (Real.exp (-kc) - Real.exp (-1)) + c1 * (kc - 1) + c2 * (am - 1.5))) ∧
    jrc (fin 1.5) (fin 1) none (some [fin c0, fin c1, fin c2]) = .ok (fin 1) := by
  have key : ∀ am kc : ℝ, jrc (fin am) (fin kc) none (some [fin c0, fin c1, fin c2]) =
      .ok (fin (1 + c0 * (Real.exp (-kc) - Real.exp (-1)) + c1 * (kc - 1) + c2 * (am - 1.5))) := by
    intro am kc
    simp only [jrc, chooseCoeff, cf, List.getD_cons_zero, List.getD_cons_succ, one_eq, neg_fin, exp_fin, fin_sub, fin_mul,
      fin_add]
  refine ⟨key am kc, ?_⟩
  rw [key]; congr 2; ring

/-- **C74**: the PVSPEC factor for positive air mass and clear-sky index is positive when its first coefficient is, equals
that coefficient at the reference (both one), and scales as a power of each argument. -/
theorem pvspec_value {am kc : ℝ} (ha : 0 < am) (hk : 0 < kc) (c0 c1 c2 : ℝ) :
    pvspec (fin am) (fin kc) none (some [fin c0, fin c1, fin c2]) = .ok (fin (c0 * kc ^ c1 * am ^ c2)) ∧
    (0 < c0 → 0 < c0 * kc ^ c1 * am ^ c2) ∧
    pvspec (fin 1) (fin 1) none (some [fin c0, fin c1, fin c2]) = .ok (fin c0) := by
  refine ⟨?_, fun h => ?_, ?_⟩
  · simp only [pvspec, chooseCoeff, cf, List.getD_cons_zero, List.getD_cons_succ, rpow_fin_pos ha, rpow_fin_pos hk, fin_mul]
  · have := Real.rpow_pos_of_pos ha c2
    have := Real.rpow_pos_of_pos hk c1
    positivity
  · simp only [pvspec, chooseCoeff, cf, List.getD_cons_zero, List.getD_cons_succ,
      rpow_fin_pos one_pos, fin_mul, Real.one_rpow, mul_one]

example := pvspec_value (am := 1.5) (kc := 0.9) (by norm_num) (by norm_num) 0.98 (-0.05) (-0.02)

/-- **C74**: the Caballero factor is affine in aerosol optical depth and in precipitable water, and at the reference
aerosol (0.084) and water (1.4164 cm) is the air mass polynomial. -/
theorem caballero_value {am : ℝ} (ha : 0 < am) (pw aod : ℝ) (c : ℕ → ℝ) :
    caballero (fin pw) (fin am) (fin aod) none (some ((List.range 12).map fun i => fin (c i))) = .ok (fin (
      (c 0 + c 1 * am + c 2 * am ^ 2 + c 3 * am ^ 3 + c 4 * am ^ 4)
      + (aod - 0.084) * (c 5 + c 10 * c 6 * am + c 11 * c 6 * Real.log am + c 7 * am ^ 2)
      + (pw - 1.4164) * (c 8 + c 9 * Real.log am))) := by
  have hr : List.range 12 = [0, 1, 2, 3, 4, 5, 6, 7, 8, 9, 10, 11] := rfl
  simp only [caballero, chooseCoeffCS, hr, List.map_cons, List.map_nil, cf, List.getD_cons_zero, List.getD_cons_succ,
    log_fin ha, fin_pow, fin_mul, fin_add, fin_sub]

example := caballero_value (am := 1.5) (by norm_num) 1.2 0.1 (fun i => (i : ℝ))

/-- **C74**: Caballero and Polo insist on exactly one of module type and coefficients, and names are case-sensitive. -/
theorem caballero_polo_errors (x y z u v al : Fl) (m : Option String) (c : Option (List Fl)) :
    (m = none ∧ c = none ∨ m.isSome ∧ c.isSome →
      caballero x y z m c = .error .valueError ∧ polo x y z u v m c al = .error .valueError) ∧
    caballero x y z (some "CdTe") none = .error (.keyError "CdTe") := by
  constructor
  · rintro (⟨rfl, rfl⟩ | ⟨h1, h2⟩)
    · simp [caballero, polo, chooseCoeffCS]
    · obtain ⟨x, rfl⟩ := Option.isSome_iff_exists.mp h1
      obtain ⟨y, rfl⟩ := Option.isSome_iff_exists.mp h2
      simp [caballero, polo, chooseCoeffCS]
  · have : caballeroTable.lookup "CdTe" = none := by simp [caballeroTable, List.lookup]
    simp [caballero, chooseCoeffCS, this]

example := (caballero_polo_errors (fin 1) (fin 1) (fin 1) (fin 1) (fin 1) (fin 0.2) (some "cdte") (some [])).1 (Or.inr ⟨rfl, rfl⟩)

/-- **C74**: Polo's factor uses angles of incidence beyond 90 degrees as 90 degrees. -/
theorem polo_clip (x y z v al : Fl) (aoi : ℝ) (h : 90 ≤ aoi) (m : Option String) (c : Option (List Fl)) :
    polo x y z (fin aoi) v m c al = polo x y z (fin 90) v m c al := by
  have e : minimum (fin aoi) 90 = minimum (fin 90) 90 := by
    simp only [ofNat_eq, minimum_fin]
    rw [min_eq_right h]; simp
  simp only [polo, e]

example := polo_clip (fin 1) (fin 1.5) (fin 0.1) (fin 101325) (fin 0.2) 100 (by norm_num) (some "cdte") none

/-- **C74**: Polo's factor in closed form: the ratio of the air mass along the module normal (scaled with pressure) to the
air mass enters, and the albedo factor multiplies the whole. -/
theorem polo_value {am pw aod p aoi a al : ℝ} {c : ℕ → ℝ} (ham : 0 < am) (hpw : 0 ≤ pw) (haod : aod ≠ 0) (hp : 0 < p) (ha : 0 < a)
    (h : Atmosphere.relativeAirmass (fin (min aoi 90)) "kastenyoung1989" = .ok (fin a))
    (hd : c 2 + (a * p / 101325 / am) ^ c 3 ≠ 0) :
    polo (fin pw) (fin am) (fin aod) (fin aoi) (fin p) none (some ((List.range 9).map fun i => fin (c i))) (fin al) =
      .ok (fin ((c 6 * (al / 0.2) ^ 2 + c 7 * (al / 0.2) + c 8) *
        (c 0 * (a * p / 101325 / am) + c 1 / (c 2 + (a * p / 101325 / am) ^ c 3) + c 4 / aod + c 5 * Real.sqrt pw))) := by
  have hr : List.range 9 = [0, 1, 2, 3, 4, 5, 6, 7, 8] := rfl
  have hq : 0 < a * p / 101325 / am := by positivity
  have e : Atmosphere.absoluteAirmass (fin a) (fin p) / fin am = fin (a * p / 101325 / am) := by
    simp only [Atmosphere.absoluteAirmass, ofNat_eq, fin_mul]
    rw [fin_div (by norm_num)]
    simp only [fin_mul, fin_div ham.ne']
    try (congr 1; ring)
  simp only [polo, ofNat_eq, minimum_fin, h, chooseCoeffCS, hr, List.map_cons, List.map_nil, cf, List.getD_cons_zero,
    List.getD_cons_succ, e]
  simp only [rpow_fin_pos hq, fin_add, fin_div hd, fin_div haod, sqrt_fin hpw, fin_mul,
    fin_div (show (0.2 : ℝ) ≠ 0 by norm_num), fin_pow]

example : ∃ a : ℝ, polo (fin 1.2) (fin 1.5) (fin 0.1) (fin 50) (fin 101325) none (some ((List.range 9).map fun i : ℕ => fin (i : ℝ))) (fin 0.3)
    = .ok (fin ((6 * (0.3 / 0.2) ^ 2 + 7 * (0.3 / 0.2) + 8) *
        (0 * (a * 101325 / 101325 / 1.5) + 1 / (2 + (a * 101325 / 101325 / 1.5) ^ (3 : ℝ)) + 4 / 0.1 + 5 * Real.sqrt 1.2))) := by
  obtain ⟨a, ha, h⟩ := Pvlib.Props.Atmosphere.airmass_positive "kastenyoung1989" 50 (by norm_num) (by norm_num) (by decide)
  refine ⟨a, ?_⟩
  have := polo_value (am := 1.5) (pw := 1.2) (aod := 0.1) (p := 101325) (aoi := 50) (a := a) (al := 0.3) (c := fun i => (i : ℝ))
    (by norm_num) (by norm_num) (by norm_num) (by norm_num) ha (by rw [min_eq_left (by norm_num)]; exact h)
    (by
      have : 0 ≤ (a * 101325 / 101325 / 1.5) ^ ((3 : ℕ) : ℝ) := Real.rpow_nonneg (by positivity) _
      push_cast at *
      linarith)
  simpa using this

/-! ### C75: spectral response and photon energy -/

private theorem hcq_pos : 0 < hcq := by unfold hcq; norm_num

/-- **C75**: quantum efficiency and spectral response conversions are inverse to each other (positive wavelengths). -/
theorem qe_sr_inverse (t : Tab) (hpos : ∀ p ∈ t, p.1 ≠ 0) :
    qeToSr (srToQe (lift t)) = lift t ∧ srToQe (qeToSr (lift t)) = lift t := by
  have hh := hcq_pos.ne'
  constructor
  · simp only [qeToSr, srToQe, lift, List.map_map, Bool.false_eq_true, if_false]
    apply List.map_congr_left
    intro p hp
    have hp0 := hpos p hp
    simp only [Function.comp, fin_div hp0, fin_mul, fin_div hh]
    congr 2; field_simp
  · simp only [qeToSr, srToQe, lift, List.map_map, Bool.false_eq_true, if_false]
    apply List.map_congr_left
    intro p hp
    have hp0 := hpos p hp
    simp only [Function.comp, fin_mul, fin_div hh, fin_div hp0]
    congr 2; field_simp

example := qe_sr_inverse [(300, 0.4), (900, 0.9)] (by norm_num)

/-- **C75**: an external quantum efficiency of one is the ideal response `λ / 1239.84 nm` (ampere per watt). -/
theorem ideal_response (w : ℝ) : qeToSr [(w, fin 1)] = [(w, fin (w / hcq))] ∧ |hcq - 1239.84| < 0.01 := by
  constructor
  · simp [qeToSr, hcq_pos.ne']
  · rw [abs_lt]; unfold hcq; norm_num

private theorem foldl_max (l : List ℝ) (a : ℝ) :
    ∃ m, (l.map fin).foldl maximum (fin a) = fin m ∧ a ≤ m ∧ (∀ x ∈ l, x ≤ m) ∧ (m = a ∨ m ∈ l) := by
  induction l generalizing a with
  | nil => exact ⟨a, rfl, le_rfl, by simp, Or.inl rfl⟩
  | cons x l ih =>
    obtain ⟨m, h1, h2, h3, h4⟩ := ih (max a x)
    refine ⟨m, by simpa using h1, le_trans (le_max_left _ _) h2, ?_, ?_⟩
    · intro y hy
      rcases List.mem_cons.mp hy with rfl | hy
      · exact le_trans (le_max_right _ _) h2
      · exact h3 y hy
    · rcases h4 with h4 | h4
      · rcases max_cases a x with ⟨h, _⟩ | ⟨h, _⟩
        · exact Or.inl (h4.trans h)
        · exact Or.inr (by rw [h4, h]; exact List.mem_cons_self)
      · exact Or.inr (List.mem_cons_of_mem _ h4)

/-- **C75**: normalisation (`normalize_max2one`) scales the values so that the largest magnitude is exactly one. -/
theorem normalize_max (l : List ℝ) (h : ∃ x ∈ l, x ≠ 0) :
    ∃ m, 0 < m ∧ normalizeMax2one (l.map fin) = (l.map fun x => fin (x / m)) ∧ (∀ x ∈ l, |x / m| ≤ 1) ∧
      ∃ x ∈ l, |x / m| = 1 := by
  obtain ⟨x0, hx0, hne⟩ := h
  cases l with
  | nil => simp at hx0
  | cons a l =>
    obtain ⟨m, h1, h2, h3, h4⟩ := foldl_max (l.map fun x => |x|) |a|
    have hm0 : 0 ≤ m := le_trans (abs_nonneg a) h2
    have hall : ∀ x ∈ a :: l, |x| ≤ m := by
      intro x hx
      rcases List.mem_cons.mp hx with rfl | hx
      · exact h2
      · exact h3 _ (List.mem_map_of_mem hx)
    have hm : 0 < m := lt_of_lt_of_le (abs_pos.mpr hne) (hall x0 hx0)
    refine ⟨m, hm, ?_, ?_, ?_⟩
    · have e : ((a :: l).map fin).map Fl.abs = fin |a| :: (l.map fun x => |x|).map fin := by
        simp [List.map_map, Function.comp]
      simp only [normalizeMax2one, e, List.foldl_cons, maximum_ninf_fin, h1]
      rw [List.map_map]
      apply List.map_congr_left
      intro x _
      simp only [Function.comp, fin_div hm.ne']
    · intro x hx
      rw [abs_div, abs_of_pos hm, div_le_one hm]
      exact hall x hx
    · rcases h4 with h4 | h4
      · exact ⟨a, List.mem_cons_self, by rw [abs_div, abs_of_pos hm, ← h4, div_self hm.ne']⟩
      · obtain ⟨x, hx, hxm⟩ := List.mem_map.mp h4
        exact ⟨x, List.mem_cons_of_mem _ hx, by rw [abs_div, abs_of_pos hm, hxm, div_self hm.ne']⟩

example := normalize_max [0.2, -0.9, 0.5] ⟨0.2, by simp, by norm_num⟩

private theorem pfd_lift (e : Tab) (hpos : ∀ p ∈ e, 0 < p.1) :
    (lift e).map (fun p => (p.1, p.2 / fin (hc / (p.1 * 1e-9)))) = lift (e.map fun p => (p.1, (1e-9 / hc) * (p.2 * p.1))) := by
  have hh : (0 : ℝ) < hc := by unfold hc; norm_num
  simp only [lift, List.map_map]
  apply List.map_congr_left
  intro p hp
  have h1 : hc / (p.1 * 1e-9) ≠ 0 := by have := hpos p hp; positivity
  simp only [Function.comp, fin_div h1]
  congr 2
  have := hpos p hp
  field_simp

/-- **C75**: the average photon energy of a non-negative spectrum lies between the photon energies (in eV) of its
longest and shortest wavelength, and does not depend on the level of the spectrum. -/
theorem ape_range {e : Tab} (he : Increasing e) (hpos : ∀ p ∈ e, 0 ≤ p.2) {lo hi : ℝ} (hlo : 0 < lo)
    (hw : ∀ p ∈ e, lo ≤ p.1 ∧ p.1 ≤ hi) (h1 : 0 < integral e) :
    ∃ E, averagePhotonEnergy (lift e) = .ok (fin E) ∧ hc / qe0 / (hi * 1e-9) ≤ E ∧ E ≤ hc / qe0 / (lo * 1e-9) ∧
      ∀ c : ℝ, 0 < c → averagePhotonEnergy (lift (scale c e)) = .ok (fin E) := by
  have hh : (0 : ℝ) < hc := by unfold hc; norm_num
  have hq : (0 : ℝ) < qe0 := by unfold qe0; norm_num
  set J := integral (e.map fun p => (p.1, p.2 * p.1)) with hJ
  have b1 : lo * integral e ≤ J := by
    rw [← integral_scale]
    exact integral_mono he (fun p => lo * p.2) (fun p => p.2 * p.1) fun p hp => by
      have := mul_le_mul_of_nonneg_right (hw p hp).1 (hpos p hp); linarith
  have b2 : J ≤ hi * integral e := by
    rw [← integral_scale]
    exact integral_mono he (fun p => p.2 * p.1) (fun p => hi * p.2) fun p hp => by
      have := mul_le_mul_of_nonneg_right (hw p hp).2 (hpos p hp); linarith
  have hJp : 0 < J := lt_of_lt_of_le (mul_pos hlo h1) b1
  have hhi : 0 < hi := by
    by_contra hc'
    have := mul_nonpos_of_nonpos_of_nonneg (not_lt.mp hc') h1.le
    linarith
  have hw' : ∀ p ∈ e, 0 < p.1 := fun p hp => lt_of_lt_of_le hlo (hw p hp).1
  have hneg : ∀ c : ℝ, 0 < c → ¬ ∃ p ∈ lift (scale c e), p.2 < 0 := by
    rintro c hc ⟨p, hp, hlt⟩
    simp only [lift, scale, List.map_map, List.mem_map, Function.comp] at hp
    obtain ⟨q, hq', rfl⟩ := hp
    simp only [zero_eq, fin_lt] at hlt
    have := mul_nonneg hc.le (hpos q hq')
    linarith
  have comp : ∀ c : ℝ, 0 < c → averagePhotonEnergy (lift (scale c e)) =
      .ok (fin (1 / qe0 * integral e / (1e-9 / hc * J))) := by
    intro c hc
    have e1 := pfd_lift (scale c e) (by
      intro p hp
      simp only [scale, List.mem_map] at hp
      obtain ⟨q, hq', rfl⟩ := hp
      exact hw' q hq')
    have e2 : integral ((scale c e).map fun p => (p.1, (1e-9 / Pvlib.Spectrum.hc) * (p.2 * p.1))) =
        c * (1e-9 / Pvlib.Spectrum.hc * J) := by
      rw [hJ, ← integral_scale, ← integral_scale]
      congr 1
      simp only [scale, List.map_map]
      apply List.map_congr_left
      intro p _
      simp only [Function.comp]
      congr 1; ring
    have n1 : c * (1e-9 / Pvlib.Spectrum.hc * J) ≠ 0 := by positivity
    simp only [averagePhotonEnergy, hneg c hc, if_false, e1, trapezoid_lift, e2, one_eq, fin_div hq.ne', fin_mul, fin_div n1,
      integral_scale]
    congr 2
    field_simp
  have s1 : scale 1 e = e := by simp [scale]
  refine ⟨1 / qe0 * integral e / (1e-9 / hc * J), ?_, ?_, ?_, comp⟩
  · have := comp 1 one_pos; rwa [s1] at this
  · have e3 : 1 / qe0 * integral e / (1e-9 / hc * J) = hc / qe0 / 1e-9 * (integral e / J) := by field_simp
    have e4 : hc / qe0 / (hi * 1e-9) = hc / qe0 / 1e-9 * (1 / hi) := by field_simp
    rw [e3, e4]
    apply mul_le_mul_of_nonneg_left _ (by positivity)
    rw [div_le_div_iff₀ hhi hJp]
    linarith
  · have e3 : 1 / qe0 * integral e / (1e-9 / hc * J) = hc / qe0 / 1e-9 * (integral e / J) := by field_simp
    have e4 : hc / qe0 / (lo * 1e-9) = hc / qe0 / 1e-9 * (1 / lo) := by field_simp
    rw [e3, e4]
    apply mul_le_mul_of_nonneg_left _ (by positivity)
    rw [div_le_div_iff₀ hJp hlo]
    linarith

example := ape_range demoE_inc (by simp [demoE]) (lo := 300) (hi := 900) (by norm_num) (by norm_num [demoE]) demoE_pos

/-- **C75**: a negative spectral irradiance is refused. -/
theorem ape_negative (s : Spec) : (∃ p ∈ s, p.2 < 0) ↔ averagePhotonEnergy s = .error .valueError := by
  unfold averagePhotonEnergy
  by_cases h : ∃ p ∈ s, p.2 < 0 <;> simp [h]

/-! ### The modules that are named (C74)

Naming a module is giving the published coefficients: the lists below are those of the papers cited in the documentation. -/

/-- **C74**: the modules of the First Solar model, with the two synonyms. -/
theorem firstsolar_modules (pw am a b c' d : Fl) (m : String) (c : List ℝ) (h : (m, c) ∈ ([("cdte", [0.86273, -0.038948, -0.012506, 0.098871, 0.084658, -0.0042948]),
     ("monosi", [0.85914, -0.020880, -0.0058853, 0.12029, 0.026814, -0.0017810]),
     ("polysi", [0.84090, -0.027539, -0.0079224, 0.13570, 0.038024, -0.0021218]),
     ("cigs", [0.85252, -0.022314, -0.0047216, 0.13666, 0.013342, -0.0008945]),
     ("asi", [1.12094, -0.047620, -0.0083627, -0.10443, 0.098382, -0.0033818]),
     ("xsi", [0.85914, -0.020880, -0.0058853, 0.12029, 0.026814, -0.0017810]),
     ("multisi", [0.84090, -0.027539, -0.0079224, 0.13570, 0.038024, -0.0021218])] : List (String × List ℝ))) :
    firstsolar pw am (some m) none a b c' d = firstsolar pw am none (some (c.map fin)) a b c' d := by
  simp only [List.mem_cons, Prod.mk.injEq, List.not_mem_nil, or_false] at h
  rcases h with ⟨rfl, rfl⟩ | ⟨rfl, rfl⟩ | ⟨rfl, rfl⟩ | ⟨rfl, rfl⟩ | ⟨rfl, rfl⟩ | ⟨rfl, rfl⟩ | ⟨rfl, rfl⟩ <;> rfl

/-- **C74**: the modules of the Caballero model. -/
theorem caballero_modules (pw am aod : Fl) (m : String) (c : List ℝ) (h : (m, c) ∈ ([("cdte", [1.0044, 0.0095, -0.0037, 0.0002, 0.0000, -0.0046, -0.0182, 0, 0.0095, 0.0068, 0, 1]),
     ("monosi", [0.9706, 0.0377, -0.0123, 0.0025, -0.0002, 0.0159, -0.0165, 0, -0.0016, -0.0027, 1, 0]),
     ("multisi", [0.9836, 0.0254, -0.0085, 0.0016, -0.0001, 0.0094, -0.0132, 0, -0.0002, -0.0011, 1, 0]),
     ("cigs", [0.9801, 0.0283, -0.0092, 0.0019, -0.0001, 0.0117, -0.0126, 0, -0.0011, -0.0019, 1, 0]),
     ("asi", [1.1060, -0.0848, 0.0302, -0.0076, 0.0006, -0.1283, 0.0986, -0.0254, 0.0156, 0.0146, 1, 0]),
     ("perovskite", [1.0637, -0.0491, 0.0180, -0.0047, 0.0004, -0.0773, 0.0583, -0.0159, 0.01251, 0.0109, 1, 0])] : List (String × List ℝ))) :
    caballero pw am aod (some m) none = caballero pw am aod none (some (c.map fin)) := by
  simp only [List.mem_cons, Prod.mk.injEq, List.not_mem_nil, or_false] at h
  rcases h with ⟨rfl, rfl⟩ | ⟨rfl, rfl⟩ | ⟨rfl, rfl⟩ | ⟨rfl, rfl⟩ | ⟨rfl, rfl⟩ | ⟨rfl, rfl⟩ <;> rfl

/-- **C74**: the modules of the PVSPEC model. -/
theorem pvspec_modules (am kc : Fl) (m : String) (c : List ℝ) (h : (m, c) ∈ ([("multisi", [0.9847, -0.05237, 0.03034]),
     ("monosi", [0.9845, -0.05169, 0.03034]),
     ("fs4-2", [1.002, -0.07108, 0.02465]),
     ("fs4-1", [0.9981, -0.05776, 0.02336]),
     ("cigs", [0.9791, -0.03904, 0.03096]),
     ("asi", [1.051, -0.1033, 0.009838])] : List (String × List ℝ))) :
    pvspec am kc (some m) none = pvspec am kc none (some (c.map fin)) := by
  simp only [List.mem_cons, Prod.mk.injEq, List.not_mem_nil, or_false] at h
  rcases h with ⟨rfl, rfl⟩ | ⟨rfl, rfl⟩ | ⟨rfl, rfl⟩ | ⟨rfl, rfl⟩ | ⟨rfl, rfl⟩ | ⟨rfl, rfl⟩ <;> rfl

/-- **C74**: the modules of the JRC model, normalised by the nominal short-circuit currents of the paper. -/
theorem jrc_modules (am kc : Fl) (m : String) (c : List ℝ) (h : (m, c) ∈ ([("multisi", [0.00172 / 0.00348, 0.000508 / 0.00348, 0.00000357 / 0.00348]),
     ("cdte", [0.000643 / 0.001150, 0.000130 / 0.001150, 0.0000108 / 0.001150])] : List (String × List ℝ))) :
    jrc am kc (some m) none = jrc am kc none (some (c.map fin)) := by
  simp only [List.mem_cons, Prod.mk.injEq, List.not_mem_nil, or_false] at h
  rcases h with ⟨rfl, rfl⟩ | ⟨rfl, rfl⟩ <;> rfl

/-- **C74**: the modules of the Polo model: six coefficients and three of the albedo. -/
theorem polo_modules (pw am aod aoi p al : Fl) (m : String) (c : List ℝ) (h : (m, c) ∈ ([("cdte", [-0.0009, 46.80, 49.20, -0.87, 0.00041, 0.053, 0.0021, -0.01, 1.01]),
     ("monosi", [0.0027, 10.34, 9.48, 0.31, 0.00077, 0.006, 0, -0.003, 1.0]),
     ("cigs", [0.0017, 2.33, 1.30, 0.11, 0.00098, -0.018, -0.0009, -0.0003, 1]),
     ("asi", [0.0024, 7.32, 7.09, -0.72, -0.0013, 0.089, 0.0056, -0.020, 1.014])] : List (String × List ℝ))) :
    polo pw am aod aoi p (some m) none al = polo pw am aod aoi p none (some (c.map fin)) al := by
  simp only [List.mem_cons, Prod.mk.injEq, List.not_mem_nil, or_false] at h
  rcases h with ⟨rfl, rfl⟩ | ⟨rfl, rfl⟩ | ⟨rfl, rfl⟩ | ⟨rfl, rfl⟩ <;> rfl

example := firstsolar_modules (fin 1.4) (fin 1.5) (fin 0.1) (fin 8) (fin 0.58) (fin 10) "cdte" _ (List.Mem.head _)
example := caballero_modules (fin 1.4) (fin 1.5) (fin 0.084) "cdte" _ (List.Mem.head _)
example := pvspec_modules (fin 1.5) (fin 1) "multisi" _ (List.Mem.head _)
example := jrc_modules (fin 1.5) (fin 1) "multisi" _ (List.Mem.head _)
example := polo_modules (fin 1.4) (fin 1.5) (fin 0.084) (fin 30) (fin 101325) (fin 0.2) "cdte" _ (List.Mem.head _)

/-! ### The hypotheses can be met -/

example : Increasing [(300, 1), (600, 2), (900, 1)] ∧ 0 < integral [(300, 1), (600, 2), (900, 1)] ∧
    integral (times [(300, 1), (600, 2), (900, 1)] [(300, 0.2), (900, 0.8)]) ≠ 0 := by
  refine ⟨by simp [Increasing]; norm_num, by norm_num [integral], by norm_num [integral, times, value]⟩

end Pvlib.Props.Spectrum
end
