import Verif.Model.Atmosphere

/-! # Helper lemmas: the default relative airmass is a positive real for zenith in [0, 90] -/

noncomputable section
open scoped Classical
open Real
namespace Pvlib.Proofs
open Fl Pvlib.Atmosphere

theorem kastenyoung_fin (z : ℝ) (h0 : 0 ≤ z) (h1 : z ≤ 90) :
    ∃ am : ℝ, 0 < am ∧ kastenyoung (fin z) = fin am := by
  have hpi := Real.pi_pos
  have hc : 0 ≤ Real.cos (z * (π / 180)) := by
    apply Real.cos_nonneg_of_mem_Icc
    constructor
    · have : 0 ≤ z * (π / 180) := by positivity
      linarith
    · have : z * (π / 180) ≤ 90 * (π / 180) := mul_le_mul_of_nonneg_right h1 (by positivity)
      linarith
  have hb : (0 : ℝ) < 6.07995 + (90 - z) := by norm_num; linarith
  have hp : 0 < (6.07995 + (90 - z)) ^ (-1.6364 : ℝ) := Real.rpow_pos_of_pos hb _
  have hden : 0 < Real.cos (z * (π / 180)) + 0.50572 * (6.07995 + (90 - z)) ^ (-1.6364 : ℝ) := by
    have : (0 : ℝ) < 0.50572 * (6.07995 + (90 - z)) ^ (-1.6364 : ℝ) := by positivity
    linarith
  refine ⟨1 / (Real.cos (z * (π / 180)) + 0.50572 * (6.07995 + (90 - z)) ^ (-1.6364 : ℝ)),
    by positivity, ?_⟩
  have hw : npwhere (90 < fin z) nan (fin z) = fin z := by
    have : ¬ ((90 : ℝ) < z) := not_lt.mpr h1
    simp [npwhere, this]
  simp only [kastenyoung, hw]
  have e : (6.07995 : Fl) + (90 - fin z) = fin (6.07995 + (90 - z)) := by simp
  have e2 : (-1.6364 : Fl) = fin (-1.6364) := by simp
  rw [e, e2, rpow_fin_pos hb]
  simp only [radians_fin, cos_fin, ofScientific_eq, fin_mul, fin_add, one_eq]
  rw [fin_div hden.ne']

end Pvlib.Proofs
end
