import Verif.Props.Spec
import Mathlib.Analysis.SpecialFunctions.Trigonometric.Basic

/-! Values and signs of the trigonometric functions at round angles in degrees; used only to show that concrete cases meet the
hypotheses of the theorems. -/

namespace Pvlib.Spec
open scoped Real

theorem cosDeg_pos_of {x : ℝ} (h : -90 < x) (h' : x < 90) : 0 < cosDeg x :=
  Real.cos_pos_of_mem_Ioo ⟨by nlinarith [Real.pi_pos], by nlinarith [Real.pi_pos]⟩

theorem cosDeg_ne_of {x : ℝ} (h : -90 < x) (h' : x < 90) : cosDeg x ≠ 0 := (cosDeg_pos_of h h').ne'

theorem cosDeg_neg_of {x : ℝ} (h : 90 < x) (h' : x < 270) : cosDeg x < 0 :=
  Real.cos_neg_of_pi_div_two_lt_of_lt (by nlinarith [Real.pi_pos]) (by nlinarith [Real.pi_pos])

theorem sinDeg_pos_of {x : ℝ} (h : 0 < x) (h' : x < 180) : 0 < sinDeg x :=
  Real.sin_pos_of_pos_of_lt_pi (by nlinarith [Real.pi_pos]) (by nlinarith [Real.pi_pos])

theorem cosDeg_at0 : cosDeg 0 = 1 := by simp [cosDeg]
theorem cosDeg_at60 : cosDeg 60 = 1 / 2 := by
  rw [cosDeg, show (60 : ℝ) * (π / 180) = π / 3 by ring, Real.cos_pi_div_three]
theorem cosDeg_at90 : cosDeg 90 = 0 := by rw [cosDeg, show (90 : ℝ) * (π / 180) = π / 2 by ring, Real.cos_pi_div_two]
theorem cosDeg_at120 : cosDeg 120 = -(1 / 2) := by
  rw [cosDeg, show (120 : ℝ) * (π / 180) = π - π / 3 by ring, Real.cos_pi_sub, Real.cos_pi_div_three]
theorem cosDeg_at180 : cosDeg 180 = -1 := by rw [cosDeg, show (180 : ℝ) * (π / 180) = π by ring, Real.cos_pi]
theorem sinDeg_at0 : sinDeg 0 = 0 := by simp [sinDeg]
theorem sinDeg_at30 : sinDeg 30 = 1 / 2 := by
  rw [sinDeg, show (30 : ℝ) * (π / 180) = π / 6 by ring, Real.sin_pi_div_six]
theorem sinDeg_at90 : sinDeg 90 = 1 := by rw [sinDeg, show (90 : ℝ) * (π / 180) = π / 2 by ring, Real.sin_pi_div_two]
theorem sinDeg_at180 : sinDeg 180 = 0 := by rw [sinDeg, show (180 : ℝ) * (π / 180) = π by ring, Real.sin_pi]

end Pvlib.Spec
