import Verif.Props.Iam
import Mathlib.Analysis.SpecialFunctions.Trigonometric.Bounds
import Mathlib.Analysis.SpecialFunctions.Integrals.Basic
import Mathlib.Analysis.Real.Pi.Bounds

/-! # Properties C60-C63: diffuse incidence angle modifiers and interpolation -/

noncomputable section
open scoped Classical
open Real
namespace Pvlib.Props.IamDiffuse
open Fl Pvlib.Iam Pvlib.Tools Pvlib.Spec

/-! ### C60: martin_ruiz_diffuse -/

/-- The horizontal and upside-down tilts are nudged by a millionth of a degree. -/
def nudged (t : ℝ) : ℝ := if t = 0 then 1e-06 else if t = 180 then 180 - 1e-06 else t

/-- The solid-angle term for a view of `y` radians (pi - tilt for the sky, tilt for the ground). -/
def trigTerm (y : ℝ) : ℝ := Real.sin y + (y - Real.sin y) / (1 - Real.cos y)

private theorem nudged_mem {t : ℝ} (h0 : 0 ≤ t) (h1 : t ≤ 180) : 0 < nudged t ∧ nudged t < 180 := by
  unfold nudged
  split_ifs with h h'
  · norm_num
  · norm_num
  · exact ⟨lt_of_le_of_ne h0 (Ne.symm h), lt_of_le_of_ne h1 h'⟩

private theorem tiltNudge_fin (t : ℝ) : tiltNudge (fin t) = fin (nudged t) := by
  unfold tiltNudge nudged
  simp only [npwhere, zero_eq, eqv_fin, ofNat_eq]
  by_cases h : t = 0
  · simp only [h, if_true, eqv_fin]
    rw [if_neg (by norm_num)]
  · simp only [h, if_false, eqv_fin]
    split_ifs <;> simp

private theorem nudged_swap (t : ℝ) : nudged (180 - t) = 180 - nudged t := by
  unfold nudged
  by_cases h : t = 0
  · subst h; norm_num
  · by_cases h' : t = 180
    · subst h'; norm_num
    · have : 180 - t ≠ 0 := by intro e; apply h'; linarith
      have h2 : 180 - t ≠ 180 := by intro e; apply h; linarith
      simp [h, h', this, h2]

private theorem cos_lt_one_of {y : ℝ} (h0 : 0 < y) (h1 : y < π) : Real.cos y < 1 := by
  rw [← Real.cos_zero]
  exact Real.cos_lt_cos_of_nonneg_of_le_pi le_rfl h1.le h0

private theorem trigTerm_pos {y : ℝ} (h0 : 0 < y) (h1 : y < π) : 0 < trigTerm y := by
  have hs := Real.sin_pos_of_pos_of_lt_pi h0 h1
  have hl := Real.sin_lt h0
  have hc := cos_lt_one_of h0 h1
  unfold trigTerm
  have : 0 < (y - Real.sin y) / (1 - Real.cos y) := div_pos (by linarith) (by linarith)
  linarith

private theorem mul_cos_le_sin {u : ℝ} (h0 : 0 ≤ u) (h1 : u < π / 2) : u * Real.cos u ≤ Real.sin u := by
  have hc : 0 < Real.cos u := Real.cos_pos_of_mem_Ioo ⟨by linarith [Real.pi_pos], h1⟩
  have := Real.le_tan h0 h1
  rw [Real.tan_eq_sin_div_cos, le_div_iff₀ hc] at this
  exact this

private theorem trigTerm_le {y : ℝ} (h0 : 0 < y) (h1 : y < π) : trigTerm y ≤ 1 + π / 2 := by
  have hc := cos_lt_one_of h0 h1
  have hs := Real.sin_le_one y
  have key : y - Real.sin y ≤ π / 2 * (1 - Real.cos y) := by
    set u := y / 2 with hu
    have hy : y = 2 * u := by rw [hu]; ring
    have u0 : 0 < u := by rw [hu]; linarith
    have u1 : u < π / 2 := by rw [hu]; linarith
    rw [hy, Real.sin_two_mul, Real.cos_two_mul]
    have hS := Real.sin_pos_of_pos_of_lt_pi u0 (by linarith [Real.pi_pos])
    have hC : 0 < Real.cos u := Real.cos_pos_of_mem_Ioo ⟨by linarith, u1⟩
    have h2 := Real.sin_sq_add_cos_sq u
    have hj : 2 / π * u ≤ Real.sin u := Real.mul_le_sin u0.le u1.le
    have hj' : u ≤ π / 2 * Real.sin u := by
      have hp := Real.pi_pos
      calc u = π / 2 * (2 / π * u) := by field_simp
        _ ≤ _ := mul_le_mul_of_nonneg_left hj (by positivity)
    have ht := mul_cos_le_sin u0.le u1
    have hS1 := Real.sin_le_one u
    -- u - sin u cos u ≤ u sin u
    have h3 : u * (1 - Real.sin u) ≤ Real.sin u * Real.cos u := by
      have h4 : u * (1 - Real.sin u) * (1 + Real.sin u) ≤ Real.sin u * Real.cos u * (1 + Real.sin u) := by
        have e : u * (1 - Real.sin u) * (1 + Real.sin u) = u * Real.cos u * Real.cos u := by
          linear_combination (-u) * h2
        rw [e]
        nlinarith [mul_le_mul_of_nonneg_right ht hC.le, mul_pos (mul_pos hS hC) hS]
      exact le_of_mul_le_mul_right h4 (by linarith)
    have h5 : u * Real.sin u ≤ π / 2 * Real.sin u ^ 2 := by nlinarith
    nlinarith
  have : (y - Real.sin y) / (1 - Real.cos y) ≤ π / 2 := by
    rw [div_le_iff₀ (by linarith)]; exact key
  unfold trigTerm
  linarith

/-- The value for a view of `y` radians. -/
def mrDiffuse (c1 c2 a_r y : ℝ) : ℝ := 1 - Real.exp (-(c1 + c2 * trigTerm y) * trigTerm y / a_r)

/-- The fit parameter `c2` in effect. -/
def effC2 (a_r : ℝ) (c2 : Option ℝ) : ℝ := c2.getD (0.5 * a_r - 0.154)

private theorem mrd_eval (t a_r c1 : ℝ) (c2 : Option ℝ) (h0 : 0 ≤ t) (h1 : t ≤ 180) (ha : a_r ≠ 0) :
    martinRuizDiffuse (fin t) (fin a_r) (fin c1) (c2.map fin) =
      (fin (mrDiffuse c1 (effC2 a_r c2) a_r (π - rad (nudged t))), fin (mrDiffuse c1 (effC2 a_r c2) a_r (rad (nudged t)))) := by
  obtain ⟨n0, n1⟩ := nudged_mem h0 h1
  have hp := Real.pi_pos
  set b := rad (nudged t) with hb
  have b0 : 0 < b := by simp only [hb, rad]; positivity
  have b1 : b < π := by simp only [hb, rad]; nlinarith
  have hr : radians (fin (nudged t)) = fin b := rfl
  have hsin : npwhere (fin (nudged t) < 90) (Fl.sin (fin b)) (Fl.sin (fin π - fin b)) = fin (Real.sin b) := by
    simp only [npwhere, fin_sub, sin_fin, Real.sin_pi_sub, ite_self]
  have d1 : 1 + Real.cos b ≠ 0 := by
    have := cos_lt_one_of (y := π - b) (by linarith) (by linarith)
    rw [Real.cos_pi_sub] at this
    linarith
  have d2 : 1 - Real.cos b ≠ 0 := by
    have := cos_lt_one_of b0 b1
    linarith
  unfold martinRuizDiffuse
  simp only [tiltNudge_fin, hr, hsin]
  cases c2 with
  | none =>
    simp only [Option.map_none, cos_fin, one_eq, fin_sub, fin_add, fin_div d1, fin_div d2, fin_mul, neg_fin,
      fin_div ha, exp_fin, mrDiffuse, trigTerm, Real.sin_pi_sub, Real.cos_pi_sub, sub_neg_eq_add, effC2, Option.getD_none]
  | some c =>
    simp only [Option.map_some, cos_fin, one_eq, fin_sub, fin_add, fin_div d1, fin_div d2, fin_mul, neg_fin,
      fin_div ha, exp_fin, mrDiffuse, trigTerm, Real.sin_pi_sub, Real.cos_pi_sub, sub_neg_eq_add, effC2, Option.getD_some]

/-- **C60**: for every tilt from 0 to 180 degrees and every positive `a_r`, the sky and ground modifiers lie strictly
between 0 and 1 — with the default fit parameters, or any `c1 ≥ 0` and `c2` with `c1 + c2 (1 + pi/2) > 0`. -/
theorem martinRuizDiffuse_range (t a_r c1 : ℝ) (c2 : Option ℝ) (h0 : 0 ≤ t) (h1 : t ≤ 180) (ha : 0 < a_r)
    (hc : c2 = none ∧ c1 = 0.4244 ∨ 0 ≤ c1 ∧ ∃ c, c2 = some c ∧ 0 < c1 + c * (1 + π / 2)) :
    ∃ s g, martinRuizDiffuse (fin t) (fin a_r) (fin c1) (c2.map fin) = (fin s, fin g) ∧
      0 < s ∧ s < 1 ∧ 0 < g ∧ g < 1 := by
  have hp := Real.pi_pos
  have hp4 := Real.pi_lt_d2
  obtain ⟨hc1, hcT⟩ : 0 ≤ c1 ∧ 0 < c1 + effC2 a_r c2 * (1 + π / 2) := by
    rcases hc with ⟨rfl, rfl⟩ | ⟨h, c, rfl, h'⟩
    · refine ⟨by norm_num, ?_⟩
      simp only [effC2, Option.getD_none]
      nlinarith
    · exact ⟨h, h'⟩
  obtain ⟨n0, n1⟩ := nudged_mem h0 h1
  set b := rad (nudged t) with hb
  have b0 : 0 < b := by simp only [hb, rad]; positivity
  have b1 : b < π := by simp only [hb, rad]; nlinarith
  have val : ∀ y, 0 < y → y < π → 0 < mrDiffuse c1 (effC2 a_r c2) a_r y ∧ mrDiffuse c1 (effC2 a_r c2) a_r y < 1 := by
    intro y hy hy'
    have p := trigTerm_pos hy hy'
    have q := trigTerm_le hy hy'
    set T := 1 + π / 2 with hT
    have hT0 : 0 < T := by rw [hT]; positivity
    have pos : 0 < c1 + effC2 a_r c2 * trigTerm y := by
      have e : T * (c1 + effC2 a_r c2 * trigTerm y) =
          (T - trigTerm y) * c1 + trigTerm y * (c1 + effC2 a_r c2 * T) := by ring
      have : 0 < T * (c1 + effC2 a_r c2 * trigTerm y) := by
        rw [e]
        have := mul_nonneg (sub_nonneg.mpr q) hc1
        have := mul_pos p hcT
        linarith
      exact pos_of_mul_pos_right this hT0.le
    unfold mrDiffuse
    have hneg : -(c1 + effC2 a_r c2 * trigTerm y) * trigTerm y / a_r < 0 := by
      apply div_neg_of_neg_of_pos _ ha
      nlinarith
    have := Real.exp_lt_one_iff.mpr hneg
    have := Real.exp_pos (-(c1 + effC2 a_r c2 * trigTerm y) * trigTerm y / a_r)
    constructor <;> linarith
  obtain ⟨s1, s2⟩ := val (π - b) (by linarith) (by linarith)
  obtain ⟨g1, g2⟩ := val b b0 b1
  exact ⟨_, _, mrd_eval t a_r c1 c2 h0 h1 ha.ne', s1, s2, g1, g2⟩

example := martinRuizDiffuse_range 30 0.16 0.4244 none (by norm_num) (by norm_num) (by norm_num) (Or.inl ⟨rfl, rfl⟩)
example := martinRuizDiffuse_range 30 0.16 0.4244 (some (-0.069)) (by norm_num) (by norm_num) (by norm_num)
  (Or.inr ⟨by norm_num, _, rfl, by nlinarith [Real.pi_lt_four]⟩)

/-- **C60**: the ground modifier of a surface is the sky modifier of the surface turned over (tilt `180 - t`), and
conversely. -/
theorem martinRuizDiffuse_swap (t a_r c1 : ℝ) (c2 : Option ℝ) (h0 : 0 ≤ t) (h1 : t ≤ 180) (ha : a_r ≠ 0) :
    martinRuizDiffuse (fin (180 - t)) (fin a_r) (fin c1) (c2.map fin) =
      (martinRuizDiffuse (fin t) (fin a_r) (fin c1) (c2.map fin)).swap := by
  rw [mrd_eval t a_r c1 c2 h0 h1 ha, mrd_eval (180 - t) a_r c1 c2 (by linarith) (by linarith) ha, nudged_swap]
  have : rad (180 - nudged t) = π - rad (nudged t) := by simp only [rad]; ring
  simp only [this, Prod.swap, sub_sub_cancel]

example := martinRuizDiffuse_swap 30 0.16 0.4244 none (by norm_num) (by norm_num) (by norm_num)

/-! ### C63: schlick_diffuse -/

/-- The bracket of Eq. 4 for a tilt `b` in radians. -/
private def bracket (b : ℝ) : ℝ :=
  30 / 7 * π - 160 / 21 * b - 10 / 3 * π * Real.cos b + 160 / 21 * Real.cos b * Real.sin b
    - 5 / 3 * π * Real.cos b * Real.sin b ^ 2 + 20 / 7 * Real.cos b * Real.sin b ^ 3
    - 5 / 16 * π * Real.cos b * Real.sin b ^ 4 + 16 / 105 * Real.cos b * Real.sin b ^ 5

private theorem bracket_swap (b : ℝ) : bracket b + bracket (π - b) = 20 / 21 * π := by
  simp only [bracket, Real.cos_pi_sub, Real.sin_pi_sub]; ring

private theorem cuk_eval {t : ℝ} (h : 1 + Real.cos (rad t) ≠ 0) :
    (schlickDiffuse (fin t)).1 = fin (2 / (π * (1 + Real.cos (rad t))) * bracket (rad t)) := by
  have hp : π * (1 + Real.cos (rad t)) ≠ 0 := mul_ne_zero Real.pi_ne_zero h
  have e1 : cosd (fin t) = fin (Real.cos (rad t)) := rfl
  have e2 : sind (fin t) = fin (Real.sin (rad t)) := rfl
  have e3 : radians (fin t) = fin (rad t) := rfl
  simp only [schlickDiffuse, e1, e2, e3, one_eq, ofNat_eq, fin_add, fin_mul, fin_sub, fin_pow, fin_div hp, bracket]

private theorem cug_eval {t : ℝ} (ht : 1e-6 ≤ t) (h : 1 + Real.cos (rad t) ≠ 0) (h' : 1 - Real.cos (rad t) ≠ 0) :
    (schlickDiffuse (fin t)).2 = fin (40 / (21 * (1 - Real.cos (rad t))) -
      (1 + Real.cos (rad t)) / (1 - Real.cos (rad t)) * (2 / (π * (1 + Real.cos (rad t))) * bracket (rad t))) := by
  have hp : π * (1 + Real.cos (rad t)) ≠ 0 := mul_ne_zero Real.pi_ne_zero h
  have h2 : 21 * (1 - Real.cos (rad t)) ≠ 0 := mul_ne_zero (by norm_num) h'
  have e1 : cosd (fin t) = fin (Real.cos (rad t)) := rfl
  have e2 : sind (fin t) = fin (Real.sin (rad t)) := rfl
  have e3 : radians (fin t) = fin (rad t) := rfl
  have hn : ¬ (fin t < fin 1e-6) := not_lt.mpr ht
  simp only [schlickDiffuse, e1, e2, e3, one_eq, ofNat_eq, fin_add, fin_mul, fin_sub, fin_pow, fin_div hp, bracket,
    fin_div h', fin_div h2, npwhere, if_neg hn]

private theorem cos_bounds {t : ℝ} (h0 : 0 < t) (h1 : t < 180) :
    1 + Real.cos (rad t) ≠ 0 ∧ 1 - Real.cos (rad t) ≠ 0 := by
  have hp := Real.pi_pos
  have b0 : 0 < rad t := by simp only [rad]; positivity
  have b1 : rad t < π := by simp only [rad]; nlinarith
  have e1 := cos_lt_one_of b0 b1
  have e2 := cos_lt_one_of (y := π - rad t) (by linarith) (by linarith)
  rw [Real.cos_pi_sub] at e2
  constructor <;> linarith

/-- **C63**: sky and ground transmittances, weighted by the view factors, always add up to twice the transmittance
of a full hemisphere, `20/21`. -/
theorem schlickDiffuse_conserve (t : ℝ) (h0 : 1e-6 ≤ t) (h1 : t < 180) :
    ∃ cuk cug, schlickDiffuse (fin t) = (fin cuk, fin cug) ∧
      (1 + cosDeg t) / 2 * cuk + (1 - cosDeg t) / 2 * cug = 20 / 21 := by
  obtain ⟨e1, e2⟩ := cos_bounds (by linarith) h1
  refine ⟨_, _, Prod.ext (cuk_eval e1) (cug_eval h0 e1 e2), ?_⟩
  have : cosDeg t = Real.cos (rad t) := rfl
  rw [this]
  field_simp
  ring

example := schlickDiffuse_conserve 30 (by norm_num) (by norm_num)

/-- **C63**: the ground transmittance at tilt `t` is the sky transmittance at `180 - t`. -/
theorem schlickDiffuse_swap (t : ℝ) (h0 : 1e-6 ≤ t) (h1 : t < 180) :
    (schlickDiffuse (fin t)).2 = (schlickDiffuse (fin (180 - t))).1 := by
  obtain ⟨e1, e2⟩ := cos_bounds (by linarith) h1
  have hr : rad (180 - t) = π - rad t := by simp only [rad]; ring
  have e3 : 1 + Real.cos (rad (180 - t)) ≠ 0 := by rw [hr, Real.cos_pi_sub]; simpa [sub_eq_add_neg] using e2
  rw [cug_eval h0 e1 e2, cuk_eval e3, hr, Real.cos_pi_sub]
  have hb := bracket_swap (rad t)
  have hb' : bracket (π - rad t) = 20 / 21 * π - bracket (rad t) := by linarith
  rw [hb', ← sub_eq_add_neg]
  congr 1
  have hp := Real.pi_ne_zero
  field_simp
  ring

example := schlickDiffuse_swap 30 (by norm_num) (by norm_num)

/-- **C63**: a horizontal surface sees the full hemisphere (`20/21`) and no ground (0); a vertical one sees `20/21` of
each. -/
theorem schlickDiffuse_special : schlickDiffuse (fin 0) = (fin (20 / 21), fin 0) ∧
    schlickDiffuse (fin 90) = (fin (20 / 21), fin (20 / 21)) := by
  constructor
  · have h : 1 + Real.cos (rad 0) ≠ 0 := by simp [rad]
    have h1 := cuk_eval h
    have h2 : (schlickDiffuse (fin 0)).2 = fin 0 := by
      have : fin 0 < fin 1e-6 := by simp only [fin_lt]; norm_num
      simp only [schlickDiffuse, npwhere, if_pos this, zero_eq]
    apply Prod.ext
    · rw [h1]
      congr 1
      have hp := Real.pi_ne_zero
      simp only [bracket, rad, zero_mul, Real.cos_zero, Real.sin_zero]
      field_simp
      ring
    · exact h2
  · have hr : rad 90 = π / 2 := by simp only [rad]; ring
    have h : 1 + Real.cos (rad 90) ≠ 0 := by rw [hr]; simp
    have hs := schlickDiffuse_swap 90 (by norm_num) (by norm_num)
    rw [show (180 : ℝ) - 90 = 90 by norm_num] at hs
    have h1 : (schlickDiffuse (fin 90)).1 = fin (20 / 21) := by
      rw [cuk_eval h]
      congr 1
      have hp := Real.pi_ne_zero
      simp only [bracket, hr, Real.cos_pi_div_two, Real.sin_pi_div_two]
      field_simp
      ring
    exact Prod.ext h1 (hs.trans h1)

/-- **C63**: `20/21` is the cosine-weighted hemispherical average of Schlick's modifier. -/
theorem hemisphere_average : (∫ c in (0 : ℝ)..1, (1 - (1 - c) ^ 5) * c) / (∫ c in (0 : ℝ)..1, c) = 20 / 21 := by
  have e : ∀ c : ℝ, (1 - (1 - c) ^ 5) * c = 5 * c ^ 2 - 10 * c ^ 3 + 10 * c ^ 4 - 5 * c ^ 5 + c ^ 6 := by
    intro c; ring
  simp only [e]
  have hi : ∀ (k : ℝ) (m : ℕ), IntervalIntegrable (fun c : ℝ => k * c ^ m) MeasureTheory.volume 0 1 :=
    fun k m => (by fun_prop : Continuous fun c : ℝ => k * c ^ m).intervalIntegrable _ _
  have hj : IntervalIntegrable (fun c : ℝ => c ^ 6) MeasureTheory.volume 0 1 :=
    (by fun_prop : Continuous fun c : ℝ => c ^ 6).intervalIntegrable _ _
  rw [intervalIntegral.integral_add ((((hi 5 2).sub (hi 10 3)).add (hi 10 4)).sub (hi 5 5)) hj,
    intervalIntegral.integral_sub (((hi 5 2).sub (hi 10 3)).add (hi 10 4)) (hi 5 5),
    intervalIntegral.integral_add ((hi 5 2).sub (hi 10 3)) (hi 10 4),
    intervalIntegral.integral_sub (hi 5 2) (hi 10 3)]
  simp only [intervalIntegral.integral_const_mul, integral_pow, integral_id]
  norm_num

end Pvlib.Props.IamDiffuse
end
