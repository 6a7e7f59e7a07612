import Verif.Model.Iam
import Verif.Props.Spec

/-! # Properties C58-C60: incidence angle modifiers of `pvlib.iam` -/

noncomputable section
open scoped Classical
open Real
namespace Pvlib.Props.Iam
open Fl Pvlib.Iam Pvlib.Tools Pvlib.Spec

/-! ### What an incidence angle modifier is -/

/-- `f` is an incidence angle modifier on angles of incidence from -180 to 180 degrees: a number between 0 and 1, one
at normal incidence, zero from 90 degrees on, the same for an angle and its negative, not increasing in the size of the
angle, and NaN for NaN. -/
structure IsIam (f : Fl → Fl) : Prop where
  range : ∀ a : ℝ, |a| ≤ 180 → ∃ r, f (fin a) = fin r ∧ 0 ≤ r ∧ r ≤ 1
  normal : f (fin 0) = fin 1
  behind : ∀ a : ℝ, 90 ≤ |a| → |a| ≤ 180 → f (fin a) = fin 0
  even : ∀ a : ℝ, |a| ≤ 180 → f (fin (-a)) = f (fin a)
  antitone : ∀ a b : ℝ, |a| ≤ |b| → |b| ≤ 180 → f (fin b) ≤ f (fin a)
  nan : f nan = nan

private theorem cosDeg_abs (a : ℝ) : cosDeg |a| = cosDeg a := by
  rcases abs_choice a with h | h <;> rw [h]
  simp only [cosDeg, neg_mul, Real.cos_neg]

private theorem cosDeg_anti {a b : ℝ} (ha : 0 ≤ a) (hab : a ≤ b) (hb : b ≤ 180) : cosDeg b ≤ cosDeg a := by
  have hp := Real.pi_pos
  apply Real.cos_le_cos_of_nonneg_of_le_pi
  · positivity
  · nlinarith
  · exact mul_le_mul_of_nonneg_right hab (by positivity)

private theorem cosDeg_90 : cosDeg 90 = 0 := by
  rw [cosDeg, show (90 : ℝ) * (π / 180) = π / 2 by ring, Real.cos_pi_div_two]

private theorem cosDeg_zero : cosDeg 0 = 1 := by simp [cosDeg]

private theorem cosDeg_nonpos {a : ℝ} (h : 90 ≤ |a|) (h' : |a| ≤ 180) : cosDeg a ≤ 0 := by
  rw [← cosDeg_abs, ← cosDeg_90]
  exact cosDeg_anti (by norm_num) h h'

private theorem cosDeg_pos {a : ℝ} (h : |a| < 90) : 0 < cosDeg a := by
  have hp := Real.pi_pos
  rw [abs_lt] at h
  apply Real.cos_pos_of_mem_Ioo
  constructor <;> nlinarith

/-- The cosine that reaches the front of the module. -/
def front (a : ℝ) : ℝ := max 0 (cosDeg a)

private theorem front_mem (a : ℝ) : 0 ≤ front a ∧ front a ≤ 1 :=
  ⟨le_max_left _ _, max_le zero_le_one (Real.cos_le_one _)⟩

private theorem front_anti {a b : ℝ} (h : |a| ≤ |b|) (h' : |b| ≤ 180) : front b ≤ front a := by
  unfold front
  rw [← cosDeg_abs a, ← cosDeg_abs b]
  exact max_le_max le_rfl (cosDeg_anti (abs_nonneg _) h h')

theorem isIam_of' {f : Fl → Fl} (g : ℝ → ℝ) (hm : MonotoneOn g (Set.Icc 0 1)) (h0 : g 0 = 0) (h1 : g 1 = 1)
    (hf : ∀ a : ℝ, |a| ≤ 180 → f (fin a) = fin (g (front a))) (hn : f nan = nan) : IsIam f := by
  have hfr := front_mem
  refine ⟨fun a ha => ⟨_, hf a ha, ?_, ?_⟩, ?_, fun a h h' => ?_, fun a h => ?_, fun a b h h' => ?_, hn⟩
  · rw [← h0]; exact hm ⟨le_rfl, zero_le_one⟩ (hfr a) (hfr a).1
  · rw [← h1]; exact hm (hfr a) ⟨zero_le_one, le_rfl⟩ (hfr a).2
  · rw [hf 0 (by simp)]
    simp [front, cosDeg_zero, h1]
  · rw [hf a h', front, max_eq_left (cosDeg_nonpos h h'), h0]
  · rw [hf _ (by simpa using h), hf a h]
    congr 2
    simp only [front, cosDeg, neg_mul, Real.cos_neg]
  · rw [hf b h', hf a (h.trans h'), fin_le]
    exact hm (hfr b) (hfr a) (front_anti h h')

/-! ### C58: ashrae, martin_ruiz, schlick, sapm -/

/-- **C58**: `ashrae` is an incidence angle modifier for every `b ≥ 0`. -/
theorem ashrae_isIam (b : ℝ) (hb : 0 ≤ b) : IsIam (fun aoi => ashrae aoi (fin b)) := by
  apply isIam_of' (fun c => if c = 0 then 0 else max 0 (1 - b * (1 / c - 1)))
  · intro c hc d hd hcd
    simp only
    by_cases h : c = 0
    · simp only [h, if_true]; split_ifs <;> simp
    · have hc0 : 0 < c := lt_of_le_of_ne hc.1 (Ne.symm h)
      have hd0 : d ≠ 0 := (lt_of_lt_of_le hc0 hcd).ne'
      simp only [h, hd0, if_false]
      apply max_le_max le_rfl
      have : 1 / d ≤ 1 / c := one_div_le_one_div_of_le hc0 hcd
      nlinarith
  · simp
  · simp
  · intro a ha
    by_cases h : 90 ≤ |a|
    · have : front a = 0 := max_eq_left (cosDeg_nonpos h ha)
      simp [ashrae, npwhere, h, this]
    · have hc := cosDeg_pos (lt_of_not_ge h)
      have : front a = cosDeg a := max_eq_right hc.le
      have hc' : Real.cos (a * (π / 180)) ≠ 0 := hc.ne'
      simp [ashrae, npwhere, h, this, hc']
  · simp [ashrae, npwhere]

example := ashrae_isIam 0.05 (by norm_num)

/-- `ashrae` beyond 90 degrees is zero for every angle whatsoever, including infinities; and for every `b`, any sign,
it is never negative. -/
theorem ashrae_total (aoi : Fl) (b : ℝ) :
    (90 ≤ Fl.abs aoi → ashrae aoi (fin b) = 0) ∧ (aoi ≠ nan → 0 ≤ ashrae aoi (fin b)) := by
  constructor
  · intro h
    simp [ashrae, npwhere, h] at *
    simp [h]
  · intro h
    rcases cases_fin aoi with rfl | rfl | ⟨a, rfl⟩ | rfl
    · exact absurd rfl h
    · simp [ashrae, npwhere]
    · apply le_maximum_left
      rw [Ne, maximum_eq_nan]
      simp only [zero_eq, npwhere]
      by_cases hc : Real.cos (a * (π / 180)) = 0
      · have h90 : 90 ≤ |a| := by
          by_contra h90
          exact (cosDeg_pos (lt_of_not_ge h90)).ne' hc
        simp [h90]
      · split_ifs <;> simp [hc]
    · simp [ashrae, npwhere]

example := (ashrae_total (fin (-100)) 0.05).1 (by rw [Fl.ofNat_eq]; simp; norm_num)

private theorem one_sub_exp_pos {a : ℝ} (ha : 0 < a) : 0 < 1 - Real.exp (-1 / a) := by
  have : Real.exp (-1 / a) < 1 := by
    rw [Real.exp_lt_one_iff]; exact div_neg_of_neg_of_pos (by norm_num) ha
  linarith

/-- **C58**: `martin_ruiz` refuses exactly the non-positive `a_r`, and is an incidence angle modifier for every
positive one. -/
theorem martinRuiz_isIam (a_r : ℝ) :
    (a_r ≤ 0 → ∀ aoi, martinRuiz aoi (fin a_r) = .error .valueError) ∧
    (0 < a_r → ∃ f, (∀ aoi, martinRuiz aoi (fin a_r) = .ok (f aoi)) ∧ IsIam f) := by
  constructor
  · intro h aoi
    have : fin a_r ≤ 0 := h
    simp only [martinRuiz, if_pos this]
  · intro h
    have hn : ¬ (fin a_r ≤ 0) := not_le.mpr h
    refine ⟨fun aoi => npwhere (90 ≤ Fl.abs aoi) 0
      ((1 - Fl.exp (-cosd aoi / fin a_r)) / (1 - Fl.exp (-1 / fin a_r))), fun aoi => ?_, ?_⟩
    · simp only [martinRuiz, if_neg hn]
    have hpos := one_sub_exp_pos h
    apply isIam_of' (fun c => (1 - Real.exp (-c / a_r)) / (1 - Real.exp (-1 / a_r)))
    · intro c hc d hd hcd
      simp only
      apply div_le_div_of_nonneg_right _ hpos.le
      have : Real.exp (-d / a_r) ≤ Real.exp (-c / a_r) := by
        apply Real.exp_le_exp.mpr
        apply div_le_div_of_nonneg_right _ h.le
        linarith
      linarith
    · simp
    · exact div_self hpos.ne'
    · intro a ha
      by_cases h9 : 90 ≤ |a|
      · have : front a = 0 := max_eq_left (cosDeg_nonpos h9 ha)
        simp [npwhere, h9, this]
      · have : front a = cosDeg a := max_eq_right (cosDeg_pos (lt_of_not_ge h9)).le
        simp [npwhere, h9, this, h.ne', hpos.ne']
    · simp [npwhere]

example := (martinRuiz_isIam 0.16).2 (by norm_num)

/-- **C58**: `schlick` is an incidence angle modifier. -/
theorem schlick_isIam : IsIam schlick := by
  apply isIam_of' (fun c => 1 - (1 - c) ^ 5)
  · intro c hc d hd hcd
    simp only
    have : (1 - d) ^ 5 ≤ (1 - c) ^ 5 := by
      apply pow_le_pow_left₀ <;> linarith [hd.2]
    linarith
  · norm_num
  · norm_num
  · intro a ha
    by_cases h9 : 90 ≤ |a|
    · have : front a = 0 := max_eq_left (cosDeg_nonpos h9 ha)
      simp [schlick, npwhere, h9, this]
    · have : front a = cosDeg a := max_eq_right (cosDeg_pos (lt_of_not_ge h9)).le
      simp [schlick, npwhere, h9, this]
  · simp [schlick, npwhere]

/-- **C58**: the SAPM modifier is the quintic `B0 + B1 x + ... + B5 x^5` limited to `[0, upper]` for non-negative
angles, 0 for negative ones, NaN for NaN. -/
theorem sapm_value (aoi B0 B1 B2 B3 B4 B5 : ℝ) (upper : Option ℝ) :
    sapm (fin aoi) (fin B0) (fin B1) (fin B2) (fin B3) (fin B4) (fin B5) (upper.map fin) =
      (if aoi < 0 then fin 0 else
        let p := B0 + B1 * aoi + B2 * aoi ^ 2 + B3 * aoi ^ 3 + B4 * aoi ^ 4 + B5 * aoi ^ 5
        match upper with
        | none => fin (max p 0)
        | some u => fin (min (max p 0) u)) := by
  have hp : polyval [fin B5, fin B4, fin B3, fin B2, fin B1, fin B0] (fin aoi) =
      fin (B0 + B1 * aoi + B2 * aoi ^ 2 + B3 * aoi ^ 3 + B4 * aoi ^ 4 + B5 * aoi ^ 5) := by
    simp only [polyval, List.foldl, zero_eq, fin_mul, fin_add]
    congr 1; ring
  unfold sapm
  simp only [hp]
  by_cases h : aoi < 0
  · simp [npwhere, h]
  · cases upper <;> simp [npwhere, h, clip]

theorem sapm_nan (B0 B1 B2 B3 B4 B5 : Fl) (upper : Option Fl) :
    sapm nan B0 B1 B2 B3 B4 B5 upper = nan := by
  cases upper <;> simp [sapm, npwhere, polyval]

/-- The hypotheses are met: at 60 degrees the ASHRAE modifier with `b = 0.05` is 0.95. -/
example : ashrae (fin 60) (fin 0.05) = fin 0.95 := by
  have : Real.cos (60 * (π / 180)) = 1 / 2 := by
    rw [show (60 : ℝ) * (π / 180) = π / 3 by ring, Real.cos_pi_div_three]
  have h9 : ¬ (90 : ℝ) ≤ |60| := by norm_num [abs_of_pos]
  simp [ashrae, npwhere, this, h9]
  norm_num

end Pvlib.Props.Iam
end
