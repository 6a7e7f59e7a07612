import Verif.Props.Atmosphere
import Mathlib.Analysis.Calculus.Deriv.Add
import Mathlib.Analysis.Calculus.Deriv.Mul
import Mathlib.Analysis.Calculus.Deriv.Inv
import Mathlib.Analysis.Calculus.Deriv.MeanValue
import Mathlib.Analysis.SpecialFunctions.Pow.Deriv
import Mathlib.Analysis.Real.Pi.Bounds
import Mathlib.Analysis.SpecialFunctions.Trigonometric.Bounds
import Mathlib.Analysis.SpecialFunctions.Trigonometric.Deriv

/-! # C231: the air-mass formulas, and that a lower sun means more air mass -/

noncomputable section
open scoped Classical
open Real Set
namespace Pvlib.Props.AirMass
open Fl Pvlib.Atmosphere Pvlib.Spec

/-! ### Specification: the formulas as published, `z` the zenith in degrees -/

/-- The relative air mass of the eight models. -/
def published (model : String) (z : ℝ) : ℝ :=
  if model = "simple" then 1 / cosDeg z
  else if model = "kasten1966" then 1 / (cosDeg z + 0.15 * (93.885 - z) ^ (-1.253 : ℝ))
  else if model = "youngirvine1967" then 1 / cosDeg z * (1 - 0.0012 * ((1 / cosDeg z) ^ 2 - 1))
  else if model = "kastenyoung1989" then 1 / (cosDeg z + 0.50572 * (96.07995 - z) ^ (-1.6364 : ℝ))
  else if model = "gueymard1993" then 1 / (cosDeg z + 0.00176759 * z * (94.37515 - z) ^ (-1.21563 : ℝ))
  else if model = "young1994" then (1.002432 * cosDeg z ^ 2 + 0.148386 * cosDeg z + 0.0096467) /
      (cosDeg z ^ 3 + 0.149864 * cosDeg z ^ 2 + 0.0102963 * cosDeg z + 0.000303978)
  else if model = "pickering2002" then 1 / sinDeg ((90 - z) + 244 / (165 + 47 * (90 - z) ^ (1.1 : ℝ)))
  else 1 / (cosDeg z + 0.48353 * z ^ (0.095846 : ℝ) / (96.741 - z) ^ (1.754 : ℝ))

/-- The names. -/
def names : List String :=
  ["simple", "kasten1966", "youngirvine1967", "kastenyoung1989", "gueymard1993", "young1994", "pickering2002", "gueymard2003"]

/-! ### The formulas -/

private theorem wz (z : ℝ) (h1 : z ≤ 90) : npwhere (90 < fin z) nan (fin z) = fin z := by
  have : ¬ ((90 : ℝ) < z) := not_lt.mpr h1
  simp [npwhere, this]

private theorem cos_nonneg' (z : ℝ) (h0 : 0 ≤ z) (h1 : z ≤ 90) : 0 ≤ cosDeg z := by
  have hpi := Real.pi_pos
  apply Real.cos_nonneg_of_mem_Icc
  constructor
  · have : 0 ≤ z * (π / 180) := by positivity
    linarith
  · have : z * (π / 180) ≤ 90 * (π / 180) := mul_le_mul_of_nonneg_right h1 (by positivity)
    linarith

private theorem cos_pos' (z : ℝ) (h0 : 0 ≤ z) (h1 : z < 90) : 0 < cosDeg z := by
  have hpi := Real.pi_pos
  apply Real.cos_pos_of_mem_Ioo
  constructor
  · have : 0 ≤ z * (π / 180) := by positivity
    linarith
  · have : z * (π / 180) < 90 * (π / 180) := mul_lt_mul_of_pos_right h1 (by positivity)
    linarith

private theorem pick_pos (z : ℝ) (h0 : 0 ≤ z) (h1 : z ≤ 90) :
    0 < sinDeg ((90 - z) + 244 / (165 + 47 * (90 - z) ^ (1.1 : ℝ))) := by
  have hpi := Real.pi_pos
  have hb : (0 : ℝ) ≤ 90 - z := by linarith
  have hq : (0 : ℝ) ≤ (90 - z) ^ (1.1 : ℝ) := Real.rpow_nonneg hb _
  have hd : (0 : ℝ) < 165 + 47 * (90 - z) ^ (1.1 : ℝ) := by linarith
  have hf : (0 : ℝ) < 244 / (165 + 47 * (90 - z) ^ (1.1 : ℝ)) := by positivity
  have hf' : 244 / (165 + 47 * (90 - z) ^ (1.1 : ℝ)) ≤ 2 := by
    rw [div_le_iff₀ hd]; linarith
  apply Real.sin_pos_of_pos_of_lt_pi
  · have : 0 < 90 - z + 244 / (165 + 47 * (90 - z) ^ (1.1 : ℝ)) := by linarith
    positivity
  · have : (90 - z + 244 / (165 + 47 * (90 - z) ^ (1.1 : ℝ))) * (π / 180) ≤ 92 * (π / 180) :=
      mul_le_mul_of_nonneg_right (by linarith) (by positivity)
    linarith

/-- **C231**: for the sun above the horizon every model returns its published formula.  (At the horizon itself all but `simple` and
`youngirvine1967`, whose secant is infinite there, do as well.) -/
theorem airmass_value (model : String) (z : ℝ) (h0 : 0 ≤ z) (h1 : z ≤ 90) (hm : pyLower model ∈ names)
    (h90 : z = 90 → pyLower model ≠ "simple" ∧ pyLower model ≠ "youngirvine1967") :
    relativeAirmass (fin z) model = .ok (fin (published (pyLower model) z)) := by
  have hpi := Real.pi_pos
  have hc := cos_nonneg' z h0 h1
  have hk : ∀ f : ℝ, airmassFormula (pyLower model) (fin z) = some (fin f) → relativeAirmass (fin z) model = .ok (fin f) := by
    intro f hf
    unfold relativeAirmass
    rw [wz z h1]
    simp only [hf]
  apply hk
  have hlt : (pyLower model = "simple" ∨ pyLower model = "youngirvine1967") → z < 90 := by
    intro h
    refine lt_of_le_of_ne h1 fun e => ?_
    obtain ⟨a, b⟩ := h90 e
    rcases h with h | h
    · exact a h
    · exact b h
  generalize pyLower model = m at *
  have ecos : Fl.cos (radians (fin z)) = fin (cosDeg z) := by simp only [radians_fin, cos_fin, cosDeg]
  simp only [names, List.mem_cons, List.not_mem_nil, or_false] at hm
  rcases hm with rfl | rfl | rfl | rfl | rfl | rfl | rfl | rfl
  · have hp := cos_pos' z h0 (hlt (Or.inl rfl))
    have e0 : airmassFormula "simple" (fin z) = some (1 / Fl.cos (radians (fin z))) := rfl
    rw [e0, ecos, one_eq, fin_div hp.ne']
    rfl
  · have hb : (0 : ℝ) < 93.885 - z := by norm_num; linarith
    have hp : 0 < (93.885 - z) ^ (-1.253 : ℝ) := Real.rpow_pos_of_pos hb _
    have hd : 0 < cosDeg z + 0.15 * (93.885 - z) ^ (-1.253 : ℝ) := by
      have : (0 : ℝ) < 0.15 * (93.885 - z) ^ (-1.253 : ℝ) := by positivity
      linarith
    have e0 : airmassFormula "kasten1966" (fin z) =
        some (1 / (Fl.cos (radians (fin z)) + 0.15 * rpow (93.885 - fin z) (-1.253))) := rfl
    have e1 : (93.885 : Fl) - fin z = fin (93.885 - z) := by simp
    have e2 : (-1.253 : Fl) = fin (-1.253) := by simp
    rw [e0, ecos, e1, e2, rpow_fin_pos hb]
    simp only [ofScientific_eq, fin_mul, fin_add, one_eq]
    rw [fin_div hd.ne']
    rfl
  · have hp := cos_pos' z h0 (hlt (Or.inr rfl))
    have e0 : airmassFormula "youngirvine1967" (fin z) = some (1 / Fl.cos (radians (fin z)) *
        (1 - 0.0012 * (1 / Fl.cos (radians (fin z)) * (1 / Fl.cos (radians (fin z))) - 1))) := rfl
    have e1 : published "youngirvine1967" z = 1 / cosDeg z * (1 - 0.0012 * ((1 / cosDeg z) ^ 2 - 1)) := rfl
    rw [e0, ecos, one_eq, fin_div hp.ne', e1, sq]
    simp only [ofScientific_eq, fin_mul, fin_sub]
  · have hb : (0 : ℝ) < 6.07995 + (90 - z) := by norm_num; linarith
    have hp : 0 < (6.07995 + (90 - z)) ^ (-1.6364 : ℝ) := Real.rpow_pos_of_pos hb _
    have hd : 0 < cosDeg z + 0.50572 * (6.07995 + (90 - z)) ^ (-1.6364 : ℝ) := by
      have : (0 : ℝ) < 0.50572 * (6.07995 + (90 - z)) ^ (-1.6364 : ℝ) := by positivity
      linarith
    have e0 : airmassFormula "kastenyoung1989" (fin z) =
        some (1 / (Fl.cos (radians (fin z)) + 0.50572 * rpow (6.07995 + (90 - fin z)) (-1.6364))) := rfl
    have e1 : (6.07995 : Fl) + (90 - fin z) = fin (6.07995 + (90 - z)) := by simp
    have e2 : (-1.6364 : Fl) = fin (-1.6364) := by simp
    have e3 : published "kastenyoung1989" z = 1 / (cosDeg z + 0.50572 * (96.07995 - z) ^ (-1.6364 : ℝ)) := rfl
    rw [e0, ecos, e1, e2, rpow_fin_pos hb]
    simp only [ofScientific_eq, fin_mul, fin_add, one_eq]
    rw [fin_div hd.ne', e3, show (6.07995 + (90 - z) : ℝ) = 96.07995 - z by norm_num; ring]
  · have hb : (0 : ℝ) < 94.37515 - z := by norm_num; linarith
    have hp : 0 < (94.37515 - z) ^ (-1.21563 : ℝ) := Real.rpow_pos_of_pos hb _
    have hd : 0 < cosDeg z + 0.00176759 * z * (94.37515 - z) ^ (-1.21563 : ℝ) := by
      rcases h0.eq_or_lt with h | h
      · rw [← h]; simp [cosDeg]
      · have : (0 : ℝ) < 0.00176759 * z * (94.37515 - z) ^ (-1.21563 : ℝ) := by positivity
        linarith
    have e0 : airmassFormula "gueymard1993" (fin z) =
        some (1 / (Fl.cos (radians (fin z)) + 0.00176759 * fin z * rpow (94.37515 - fin z) (-1.21563))) := rfl
    have e1 : (94.37515 : Fl) - fin z = fin (94.37515 - z) := by simp
    have e2 : (-1.21563 : Fl) = fin (-1.21563) := by simp
    rw [e0, ecos, e1, e2, rpow_fin_pos hb]
    simp only [ofScientific_eq, fin_mul, fin_add, one_eq]
    rw [fin_div hd.ne']
    rfl
  · have hd : 0 < cosDeg z ^ 3 + 0.149864 * cosDeg z ^ 2 + 0.0102963 * cosDeg z + 0.000303978 := by positivity
    have e0 : airmassFormula "young1994" (fin z) =
        some ((1.002432 * Fl.cos (radians (fin z)) ^ 2 + 0.148386 * Fl.cos (radians (fin z)) + 0.0096467) /
        (Fl.cos (radians (fin z)) ^ 3 + 0.149864 * Fl.cos (radians (fin z)) ^ 2 + 0.0102963 * Fl.cos (radians (fin z))
          + 0.000303978)) := rfl
    rw [e0, ecos]
    simp only [ofScientific_eq, fin_pow, fin_mul, fin_add]
    rw [fin_div hd.ne']
    rfl
  · have hb : (0 : ℝ) ≤ 90 - z := by linarith
    have hq : (0 : ℝ) ≤ (90 - z) ^ (1.1 : ℝ) := Real.rpow_nonneg hb _
    have hd : (0 : ℝ) < 165 + 47 * (90 - z) ^ (1.1 : ℝ) := by linarith
    have hs := pick_pos z h0 h1
    have e0 : airmassFormula "pickering2002" (fin z) =
        some (1 / Fl.sin (radians (90 - fin z + 244 / (165 + 47 * rpow (90 - fin z) 1.1)))) := rfl
    have e1 : rpow (90 - fin z) 1.1 = fin ((90 - z) ^ (1.1 : ℝ)) := by
      simp only [ofNat_eq, fin_sub, ofScientific_eq]
      exact rpow_fin_nonneg hb (by norm_num)
    have e2 : (244 : Fl) / (165 + 47 * fin ((90 - z) ^ (1.1 : ℝ))) = fin (244 / (165 + 47 * (90 - z) ^ (1.1 : ℝ))) := by
      simp only [ofNat_eq, fin_mul, fin_add]
      rw [fin_div hd.ne']
    rw [e0, e1, e2]
    simp only [ofNat_eq, fin_sub, fin_add, radians_fin, sin_fin, one_eq]
    rw [fin_div hs.ne']
    rfl
  · have hb : (0 : ℝ) < 96.741 - z := by norm_num; linarith
    have hp : 0 < (96.741 - z) ^ (1.754 : ℝ) := Real.rpow_pos_of_pos hb _
    have hz : 0 ≤ z ^ (0.095846 : ℝ) := Real.rpow_nonneg h0 _
    have hd : 0 < cosDeg z + 0.48353 * z ^ (0.095846 : ℝ) / (96.741 - z) ^ (1.754 : ℝ) := by
      rcases h0.eq_or_lt with h | h
      · rw [← h, Real.zero_rpow (by norm_num)]; simp [cosDeg]
      · have : 0 < z ^ (0.095846 : ℝ) := Real.rpow_pos_of_pos h _
        have : (0 : ℝ) < 0.48353 * z ^ (0.095846 : ℝ) / (96.741 - z) ^ (1.754 : ℝ) := by positivity
        linarith
    have e0 : airmassFormula "gueymard2003" (fin z) =
        some (1 / (Fl.cos (radians (fin z)) + 0.48353 * rpow (fin z) 0.095846 / rpow (96.741 - fin z) 1.754)) := rfl
    have e1 : (96.741 : Fl) - fin z = fin (96.741 - z) := by simp
    have e2 : rpow (fin z) 0.095846 = fin (z ^ (0.095846 : ℝ)) := by
      simp only [ofScientific_eq]
      exact rpow_fin_nonneg h0 (by norm_num)
    have e3 : (1.754 : Fl) = fin 1.754 := rfl
    rw [e0, ecos, e1, e2, e3, rpow_fin_pos hb]
    simp only [ofScientific_eq, fin_mul]
    rw [fin_div hp.ne', fin_add, one_eq, fin_div hd.ne']
    rfl

example := airmass_value "Young1994" 75 (by norm_num) (by norm_num) (by decide) (by norm_num)
example := airmass_value "kasten1966" 90 (by norm_num) (by norm_num) (by decide) (fun _ => ⟨by decide, by decide⟩)

/-! ### A lower sun means more air mass -/

/-- `t^m r^k ≤ t^q` when `r` is at most the `n`-th root of `t`. -/
private theorem low (t q r : ℝ) (m k n : ℕ) (hn : 0 < n) (ht : 1 ≤ t) (hr0 : 0 ≤ r) (hr : r ^ n ≤ t) (hq : (m : ℝ) + k / n ≤ q) :
    t ^ m * r ^ k ≤ t ^ q := by
  have ht0 : 0 < t := by linarith
  have hn' : (n : ℝ) ≠ 0 := by exact_mod_cast hn.ne'
  have h1 : t ^ ((m : ℝ) + k / n) ≤ t ^ q := Real.rpow_le_rpow_of_exponent_le ht hq
  have h2 : r ≤ t ^ (1 / (n : ℝ)) := by
    have := Real.rpow_le_rpow (by positivity) hr (by positivity : (0 : ℝ) ≤ 1 / n)
    rwa [one_div, Real.pow_rpow_inv_natCast hr0 hn.ne', ← one_div] at this
  have h3 : r ^ k ≤ t ^ ((k : ℝ) / n) := by
    have := pow_le_pow_left₀ hr0 h2 k
    rwa [← Real.rpow_natCast (t ^ (1 / (n : ℝ))) k, ← Real.rpow_mul ht0.le, one_div_mul_eq_div] at this
  rw [Real.rpow_add ht0, Real.rpow_natCast] at h1
  exact le_trans (mul_le_mul_of_nonneg_left h3 (by positivity)) h1

/-- `c t^(-q) < d` from a lower bound `b` of `t^q` with `c < d b`. -/
private theorem neg_bound (c d b t q : ℝ) (ht : 0 < t) (hd : 0 < d) (hb : b ≤ t ^ q) (h : c < d * b) :
    c * t ^ (-q) < d := by
  have hp : 0 < t ^ q := Real.rpow_pos_of_pos ht _
  rw [Real.rpow_neg ht.le, ← div_eq_mul_inv, div_lt_iff₀ hp]
  exact lt_of_lt_of_le h (mul_le_mul_of_nonneg_left hb hd.le)

/-- How fast the cosine falls. -/
private theorem slope (z : ℝ) (h0 : 0 ≤ z) (h1 : z ≤ 90) : z / 5157 ≤ Real.sin (z * (π / 180)) * (π / 180) := by
  have hpi := Real.pi_pos
  have h314 := Real.pi_gt_d4
  have hs : 2 / π * (z * (π / 180)) ≤ Real.sin (z * (π / 180)) := by
    apply Real.mul_le_sin (by positivity)
    have : z * (π / 180) ≤ 90 * (π / 180) := mul_le_mul_of_nonneg_right h1 (by positivity)
    linarith
  have e : 2 / π * (z * (π / 180)) = z / 90 := by field_simp; ring
  rw [e] at hs
  have : z / 90 * (π / 180) ≤ Real.sin (z * (π / 180)) * (π / 180) := mul_le_mul_of_nonneg_right hs (by positivity)
  refine le_trans ?_ this
  have : z / 90 * (3.1415 / 180) ≤ z / 90 * (π / 180) := by
    apply mul_le_mul_of_nonneg_left _ (by positivity)
    linarith
  refine le_trans ?_ this
  have : z / 90 * (3.1415 / 180) - z / 5157 = z * (3.1415 / 16200 - 1 / 5157) := by ring
  have : 0 ≤ z * (3.1415 / 16200 - 1 / 5157) := mul_nonneg h0 (by norm_num)
  linarith

/-- A denominator `cos z + g z` falls with `z` where `g` rises slowly enough. -/
private theorem anti (g g' : ℝ → ℝ) (lo : ℝ) (h0 : 0 ≤ lo) (hg : ∀ z ∈ Icc lo 90, HasDerivAt g (g' z) z)
    (hs : ∀ z ∈ Icc lo 90, g' z < z / 5157) : StrictAntiOn (fun z => cosDeg z + g z) (Icc lo 90) := by
  have hd : ∀ z ∈ Icc lo 90, HasDerivAt (fun z => cosDeg z + g z) (-(Real.sin (z * (π / 180)) * (π / 180)) + g' z) z := by
    intro z hz
    have h1 : HasDerivAt (fun z : ℝ => z * (π / 180)) (π / 180) z := by
      simpa using (hasDerivAt_id z).mul_const (π / 180)
    have h2 := (Real.hasDerivAt_cos (z * (π / 180))).comp z h1
    have h3 : HasDerivAt cosDeg (-(Real.sin (z * (π / 180)) * (π / 180))) z := by
      have e : cosDeg = Real.cos ∘ fun z : ℝ => z * (π / 180) := rfl
      rw [e]
      exact h2.congr_deriv (by ring)
    exact h3.add (hg z hz)
  apply strictAntiOn_of_deriv_neg (convex_Icc _ _)
  · exact fun z hz => (hd z hz).continuousAt.continuousWithinAt
  · intro z hz
    rw [interior_Icc] at hz
    have hz' : z ∈ Icc lo 90 := ⟨hz.1.le, hz.2.le⟩
    rw [(hd z hz').deriv]
    have h1 := slope z (h0.trans hz'.1) hz'.2
    have h2 := hs z hz'
    linarith

private theorem deriv_pow (b p z : ℝ) (h : z < b) : HasDerivAt (fun z : ℝ => (b - z) ^ (-p)) (p * (b - z) ^ (-(p + 1))) z := by
  have h1 : HasDerivAt (fun z : ℝ => b - z) (-1) z := by
    simpa using (hasDerivAt_id z).const_sub b
  have h2 := h1.rpow_const (p := -p) (Or.inl (by linarith : b - z ≠ 0))
  refine h2.congr_deriv ?_
  rw [show -p - 1 = -(p + 1) by ring]
  ring

private theorem ky_anti : StrictAntiOn (fun z => cosDeg z + 0.50572 * (96.07995 - z) ^ (-1.6364 : ℝ)) (Icc 0.1 90) := by
  apply anti (fun z => 0.50572 * (96.07995 - z) ^ (-1.6364 : ℝ)) (fun z => 0.50572 * (1.6364 * (96.07995 - z) ^ (-(1.6364 + 1) : ℝ))) _ (by norm_num)
  · intro z hz
    exact (deriv_pow 96.07995 1.6364 z (by have := hz.2; linarith)).const_mul _
  · intro z hz
    obtain ⟨h1, h2⟩ := hz
    have ht : (6.07995 : ℝ) ≤ 96.07995 - z := by norm_num at h2 ⊢; linarith
    have h3 : 96.07995 - z ≤ 96 := by norm_num at h1 ⊢; linarith
    have hz0 : 0 < z := by norm_num at h1; linarith
    have e : z = 96.07995 - (96.07995 - z) := by ring
    generalize ht' : 96.07995 - z = t at *
    rw [← mul_assoc]
    rcases le_total z 60 with h6 | h6
    · rcases le_total z 1 with h7 | h7
      · have := low t (1.6364 + 1) 9.7 2 1 2 (by norm_num) (by linarith) (by norm_num) (by norm_num; linarith) (by norm_num)
        refine neg_bound _ _ _ t _ (by linarith) (by positivity) this ?_
        have : (95 : ℝ) ^ 2 ≤ t ^ 2 := pow_le_pow_left₀ (by norm_num) (by linarith) 2
        have h8 : 0.1 / 5157 * (95 ^ 2 * 9.7 ^ 1) ≤ z / 5157 * (t ^ 2 * 9.7 ^ 1) := by gcongr
        refine lt_of_lt_of_le ?_ h8
        norm_num
      · have := low t (1.6364 + 1) 6 2 1 2 (by norm_num) (by linarith) (by norm_num) (by norm_num; linarith) (by norm_num)
        refine neg_bound _ _ _ t _ (by linarith) (by positivity) this ?_
        have : (36 : ℝ) ^ 2 ≤ t ^ 2 := pow_le_pow_left₀ (by norm_num) (by linarith) 2
        have h8 : 1 / 5157 * (36 ^ 2 * 6 ^ 1) ≤ z / 5157 * (t ^ 2 * 6 ^ 1) := by gcongr
        refine lt_of_lt_of_le ?_ h8
        norm_num
    · have := low t (1.6364 + 1) 2.44 2 1 2 (by norm_num) (by linarith) (by norm_num) (by norm_num; linarith) (by norm_num)
      refine neg_bound _ _ _ t _ (by linarith) (by positivity) this ?_
      have : (6 : ℝ) ^ 2 ≤ t ^ 2 := pow_le_pow_left₀ (by norm_num) (by linarith) 2
      have h8 : 60 / 5157 * (6 ^ 2 * 2.44 ^ 1) ≤ z / 5157 * (t ^ 2 * 2.44 ^ 1) := by gcongr
      refine lt_of_lt_of_le ?_ h8
      norm_num

private theorem k66_anti : StrictAntiOn (fun z => cosDeg z + 0.15 * (93.885 - z) ^ (-1.253 : ℝ)) (Icc 0.1 90) := by
  apply anti (fun z => 0.15 * (93.885 - z) ^ (-1.253 : ℝ)) (fun z => 0.15 * (1.253 * (93.885 - z) ^ (-(1.253 + 1) : ℝ))) _ (by norm_num)
  · intro z hz
    exact (deriv_pow 93.885 1.253 z (by have := hz.2; linarith)).const_mul _
  · intro z hz
    obtain ⟨h1, h2⟩ := hz
    have ht : (3.885 : ℝ) ≤ 93.885 - z := by norm_num at h2 ⊢; linarith
    have hz0 : 0 < z := by norm_num at h1; linarith
    have e : z = 93.885 - (93.885 - z) := by ring
    generalize ht' : 93.885 - z = t at *
    rw [← mul_assoc]
    rcases le_total z 60 with h6 | h6
    · rcases le_total z 1 with h7 | h7
      · have := low t (1.253 + 1) 3 2 1 4 (by norm_num) (by linarith) (by norm_num) (by norm_num; linarith) (by norm_num)
        refine neg_bound _ _ _ t _ (by linarith) (by positivity) this ?_
        have : (92 : ℝ) ^ 2 ≤ t ^ 2 := pow_le_pow_left₀ (by norm_num) (by linarith) 2
        have h8 : 0.1 / 5157 * (92 ^ 2 * 3 ^ 1) ≤ z / 5157 * (t ^ 2 * 3 ^ 1) := by gcongr
        refine lt_of_lt_of_le ?_ h8
        norm_num
      · have := low t (1.253 + 1) 2 2 1 4 (by norm_num) (by linarith) (by norm_num) (by norm_num; linarith) (by norm_num)
        refine neg_bound _ _ _ t _ (by linarith) (by positivity) this ?_
        have : (33 : ℝ) ^ 2 ≤ t ^ 2 := pow_le_pow_left₀ (by norm_num) (by linarith) 2
        have h8 : 1 / 5157 * (33 ^ 2 * 2 ^ 1) ≤ z / 5157 * (t ^ 2 * 2 ^ 1) := by gcongr
        refine lt_of_lt_of_le ?_ h8
        norm_num
    · have := low t (1.253 + 1) 1.4 2 1 4 (by norm_num) (by linarith) (by norm_num) (by norm_num at ht ⊢; linarith) (by norm_num)
      refine neg_bound _ _ _ t _ (by linarith) (by positivity) this ?_
      have : (3.885 : ℝ) ^ 2 ≤ t ^ 2 := pow_le_pow_left₀ (by norm_num) ht 2
      have h8 : 60 / 5157 * (3.885 ^ 2 * 1.4 ^ 1) ≤ z / 5157 * (t ^ 2 * 1.4 ^ 1) := by gcongr
      refine lt_of_lt_of_le ?_ h8
      norm_num

private theorem g93_anti : StrictAntiOn (fun z => cosDeg z + 0.00176759 * z * (94.37515 - z) ^ (-1.21563 : ℝ)) (Icc 0.1 90) := by
  apply anti (fun z => 0.00176759 * z * (94.37515 - z) ^ (-1.21563 : ℝ))
    (fun z => 0.00176759 * ((94.37515 - z) + 1.21563 * z) * (94.37515 - z) ^ (-(1.21563 + 1) : ℝ)) _ (by norm_num)
  · intro z hz
    have hb : (0 : ℝ) < 94.37515 - z := by have := hz.2; norm_num; linarith
    have h1 : HasDerivAt (fun z : ℝ => 0.00176759 * z) 0.00176759 z := by
      simpa using (hasDerivAt_id z).const_mul (0.00176759 : ℝ)
    have h2 := h1.fun_mul (deriv_pow 94.37515 1.21563 z (by linarith))
    refine h2.congr_deriv ?_
    have e : (94.37515 - z) ^ (-1.21563 : ℝ) = (94.37515 - z) * (94.37515 - z) ^ (-(1.21563 + 1) : ℝ) := by
      nth_rewrite 2 [← Real.rpow_one (94.37515 - z)]
      rw [← Real.rpow_add hb]
      norm_num
    rw [e]
    ring
  · intro z hz
    obtain ⟨h1, h2⟩ := hz
    have ht : (4.37515 : ℝ) ≤ 94.37515 - z := by norm_num at h2 ⊢; linarith
    have hz0 : 0 < z := by norm_num at h1; linarith
    have e : z = 94.37515 - (94.37515 - z) := by ring
    generalize ht' : 94.37515 - z = t at *
    have hc : 0.00176759 * (t + 1.21563 * z) ≤ 0.00176759 * 114 := by
      apply mul_le_mul_of_nonneg_left _ (by norm_num)
      rw [← ht']; linarith
    rcases le_total z 60 with h6 | h6
    · rcases le_total z 1 with h7 | h7
      · have := low t (1.21563 + 1) 2 2 1 5 (by norm_num) (by linarith) (by norm_num) (by norm_num; linarith) (by norm_num)
        refine neg_bound _ _ _ t _ (by linarith) (by positivity) this (lt_of_le_of_lt hc ?_)
        have : (92 : ℝ) ^ 2 ≤ t ^ 2 := pow_le_pow_left₀ (by norm_num) (by linarith) 2
        have h8 : 0.1 / 5157 * (92 ^ 2 * 2 ^ 1) ≤ z / 5157 * (t ^ 2 * 2 ^ 1) := by gcongr
        refine lt_of_lt_of_le ?_ h8
        norm_num
      · have := low t (1.21563 + 1) 1 2 0 5 (by norm_num) (by linarith) (by norm_num) (by norm_num; linarith) (by norm_num)
        refine neg_bound _ _ _ t _ (by linarith) (by positivity) this (lt_of_le_of_lt hc ?_)
        have : (33 : ℝ) ^ 2 ≤ t ^ 2 := pow_le_pow_left₀ (by norm_num) (by linarith) 2
        have h8 : 1 / 5157 * (33 ^ 2 * 1 ^ 0) ≤ z / 5157 * (t ^ 2 * 1 ^ 0) := by gcongr
        refine lt_of_lt_of_le ?_ h8
        norm_num
    · have := low t (1.21563 + 1) 1 2 0 5 (by norm_num) (by linarith) (by norm_num) (by norm_num; linarith) (by norm_num)
      refine neg_bound _ _ _ t _ (by linarith) (by positivity) this (lt_of_le_of_lt hc ?_)
      have : (4.375 : ℝ) ^ 2 ≤ t ^ 2 := pow_le_pow_left₀ (by norm_num) (by linarith) 2
      have h8 : 60 / 5157 * (4.375 ^ 2 * 1 ^ 0) ≤ z / 5157 * (t ^ 2 * 1 ^ 0) := by gcongr
      refine lt_of_lt_of_le ?_ h8
      norm_num

private theorem g03_anti : StrictAntiOn (fun z => cosDeg z + 0.48353 * z ^ (0.095846 : ℝ) / (96.741 - z) ^ (1.754 : ℝ)) (Icc 1 90) := by
  have hcongr : ∀ z ∈ Icc (1 : ℝ) 90, cosDeg z + 0.48353 * z ^ (0.095846 : ℝ) / (96.741 - z) ^ (1.754 : ℝ) =
      cosDeg z + 0.48353 * z ^ (0.095846 : ℝ) * (96.741 - z) ^ (-1.754 : ℝ) := by
    intro z hz
    have hb : (0 : ℝ) < 96.741 - z := by have := hz.2; norm_num; linarith
    rw [Real.rpow_neg hb.le, div_eq_mul_inv]
  refine StrictAntiOn.congr (f₁ := fun z => cosDeg z + 0.48353 * z ^ (0.095846 : ℝ) * (96.741 - z) ^ (-1.754 : ℝ)) ?_
    (fun z hz => (hcongr z hz).symm)
  apply anti (fun z => 0.48353 * z ^ (0.095846 : ℝ) * (96.741 - z) ^ (-1.754 : ℝ))
    (fun z => 0.48353 * z ^ (0.095846 : ℝ) * (0.095846 / z + 1.754 / (96.741 - z)) * (96.741 - z) ^ (-1.754 : ℝ)) _ (by norm_num)
  · intro z hz
    have hb : (0 : ℝ) < 96.741 - z := by have := hz.2; norm_num; linarith
    have hz0 : 0 < z := by have := hz.1; linarith
    have h1 : HasDerivAt (fun z : ℝ => 0.48353 * z ^ (0.095846 : ℝ)) (0.48353 * (0.095846 * z ^ (0.095846 - 1 : ℝ))) z :=
      (Real.hasDerivAt_rpow_const (Or.inl hz0.ne')).const_mul _
    have h2 := h1.fun_mul (deriv_pow 96.741 1.754 z (by linarith))
    refine h2.congr_deriv ?_
    have e : (96.741 - z) ^ (-(1.754 + 1) : ℝ) = (96.741 - z) ^ (-1.754 : ℝ) / (96.741 - z) := by
      rw [show (-(1.754 + 1) : ℝ) = -1.754 - 1 by ring, Real.rpow_sub_one hb.ne']
    rw [e, Real.rpow_sub_one hz0.ne']
    field_simp
  · intro z hz
    obtain ⟨h1, h2⟩ := hz
    have ht : (6.741 : ℝ) ≤ 96.741 - z := by norm_num at h2 ⊢; linarith
    have hz0 : 0 < z := by linarith
    have e : z = 96.741 - (96.741 - z) := by ring
    have hza : z ^ (0.095846 : ℝ) ≤ 1.6 := by
      have a1 : z ^ (0.095846 : ℝ) ≤ z ^ (0.1 : ℝ) := Real.rpow_le_rpow_of_exponent_le h1 (by norm_num)
      have a2 : z ^ (0.1 : ℝ) ≤ ((1.6 : ℝ) ^ 10) ^ (0.1 : ℝ) := by
        apply Real.rpow_le_rpow hz0.le _ (by norm_num)
        exact h2.trans (by norm_num)
      have a3 : ((1.6 : ℝ) ^ 10) ^ (0.1 : ℝ) = 1.6 := by
        rw [← Real.rpow_natCast, ← Real.rpow_mul (by norm_num)]
        norm_num
      linarith
    have hzp : 0 < z ^ (0.095846 : ℝ) := Real.rpow_pos_of_pos hz0 _
    generalize ht' : 96.741 - z = t at *
    generalize z ^ (0.095846 : ℝ) = y at *
    rcases le_total z 60 with h6 | h6
    · rcases le_total z 30 with h7 | h7
      · have hc : 0.48353 * y * (0.095846 / z + 1.754 / t) ≤ 0.48353 * 1.6 * (0.095846 / 1 + 1.754 / 66) := by
          have : (66 : ℝ) ≤ t := by linarith
          gcongr
        have := low t 1.754 2.85 1 3 4 (by norm_num) (by linarith) (by norm_num) (by norm_num; linarith) (by norm_num)
        refine neg_bound _ _ _ t _ (by linarith) (by positivity) this (lt_of_le_of_lt hc ?_)
        have h8 : 1 / 5157 * (66 ^ 1 * 2.85 ^ 3) ≤ z / 5157 * (t ^ 1 * 2.85 ^ 3) := by
          have : (66 : ℝ) ≤ t := by linarith
          gcongr
        refine lt_of_lt_of_le ?_ h8
        norm_num
      · have hc : 0.48353 * y * (0.095846 / z + 1.754 / t) ≤ 0.48353 * 1.6 * (0.095846 / 30 + 1.754 / 36) := by
          have : (36 : ℝ) ≤ t := by linarith
          gcongr
        have := low t 1.754 2 1 3 4 (by norm_num) (by linarith) (by norm_num) (by norm_num; linarith) (by norm_num)
        refine neg_bound _ _ _ t _ (by linarith) (by positivity) this (lt_of_le_of_lt hc ?_)
        have h8 : 30 / 5157 * (36 ^ 1 * 2 ^ 3) ≤ z / 5157 * (t ^ 1 * 2 ^ 3) := by
          have : (36 : ℝ) ≤ t := by linarith
          gcongr
        refine lt_of_lt_of_le ?_ h8
        norm_num
    · have hc : 0.48353 * y * (0.095846 / z + 1.754 / t) ≤ 0.48353 * 1.6 * (0.095846 / 60 + 1.754 / 6.741) := by
        gcongr
      have := low t 1.754 1.6 1 3 4 (by norm_num) (by linarith) (by norm_num) (by norm_num at ht ⊢; linarith) (by norm_num)
      refine neg_bound _ _ _ t _ (by linarith) (by positivity) this (lt_of_le_of_lt hc ?_)
      have h8 : 60 / 5157 * (6.741 ^ 1 * 1.6 ^ 3) ≤ z / 5157 * (t ^ 1 * 1.6 ^ 3) := by gcongr
      refine lt_of_lt_of_le ?_ h8
      norm_num

/-- The corrected altitude of `pickering2002` rises with the altitude. -/
private theorem pick_mono : StrictMonoOn (fun h : ℝ => h + 244 / (165 + 47 * h ^ (1.1 : ℝ))) (Icc 0 90) := by
  have hd : ∀ h ∈ Icc (0 : ℝ) 90, HasDerivAt (fun h : ℝ => h + 244 / (165 + 47 * h ^ (1.1 : ℝ)))
      (1 - 244 * (47 * (1.1 * h ^ (1.1 - 1 : ℝ))) / (165 + 47 * h ^ (1.1 : ℝ)) ^ 2) h := by
    intro h hh
    have hq : (0 : ℝ) ≤ h ^ (1.1 : ℝ) := Real.rpow_nonneg hh.1 _
    have h0 : (165 + 47 * h ^ (1.1 : ℝ)) ≠ 0 := by positivity
    have h1 : HasDerivAt (fun h : ℝ => 165 + 47 * h ^ (1.1 : ℝ)) (47 * (1.1 * h ^ (1.1 - 1 : ℝ))) h :=
      ((Real.hasDerivAt_rpow_const (Or.inr (by norm_num))).const_mul _).const_add _
    have h2 := (h1.fun_inv h0).const_mul 244
    have h3 := (hasDerivAt_id h).fun_add h2
    refine (h3.congr_deriv ?_).congr_of_eventuallyEq (Filter.Eventually.of_forall fun x => ?_)
    · ring
    · simp only [id, div_eq_mul_inv]
  apply strictMonoOn_of_deriv_pos (convex_Icc _ _)
  · exact fun z hz => (hd z hz).continuousAt.continuousWithinAt
  · intro h hh
    rw [interior_Icc] at hh
    obtain ⟨h0, h90⟩ := hh
    rw [(hd h ⟨h0.le, h90.le⟩).deriv]
    have e : h ^ (1.1 : ℝ) = h * h ^ (1.1 - 1 : ℝ) := by
      nth_rewrite 2 [← Real.rpow_one h]
      rw [← Real.rpow_add h0]
      norm_num
    rw [e]
    have hy0 : 0 < h ^ (1.1 - 1 : ℝ) := Real.rpow_pos_of_pos h0 _
    have hy1 : h ≤ 1 → h ^ (1.1 - 1 : ℝ) ≤ 1 := fun hl => Real.rpow_le_one h0.le hl (by norm_num)
    generalize h ^ (1.1 - 1 : ℝ) = y at *
    have hp : 0 < h * y := by positivity
    have hdp : 0 < (165 + 47 * (h * y)) ^ 2 := by positivity
    rw [sub_pos, div_lt_one hdp]
    rcases le_total h 1 with hl | hl
    · have := hy1 hl
      nlinarith
    · have : y ≤ h * y := by nlinarith
      nlinarith

private theorem pick_le (h : ℝ) (h0 : 0 ≤ h) (h1 : h ≤ 89.9) : h + 244 / (165 + 47 * h ^ (1.1 : ℝ)) ≤ 90 := by
  have h89 : h ≤ 90 := h1.trans (by norm_num)
  have hm := pick_mono.monotoneOn ⟨h0, h89⟩ (⟨by norm_num, by norm_num⟩ : (89.9 : ℝ) ∈ Icc (0 : ℝ) 90) h1
  refine hm.trans ?_
  have : (89 : ℝ) ≤ 89.9 ^ (1.1 : ℝ) := by
    have := low 89.9 1.1 1 1 0 10 (by norm_num) (by norm_num) (by norm_num) (by norm_num) (by norm_num)
    norm_num at this ⊢
    linarith
  have h2 : (0 : ℝ) < 165 + 47 * 89.9 ^ (1.1 : ℝ) := by linarith
  have : (244 : ℝ) / (165 + 47 * 89.9 ^ (1.1 : ℝ)) ≤ 0.1 := by
    rw [div_le_iff₀ h2]
    norm_num at this ⊢
    linarith
  have h5 : (89.9 : ℝ) + 0.1 ≤ 90 := by norm_num
  exact (add_le_add_right this _).trans h5

/-- From which zenith on the model is monotone (degrees). -/
def monotoneFrom (model : String) : ℝ :=
  if model = "young1994" ∨ model = "simple" then 0 else if model = "gueymard2003" then 1 else 0.1

/-- **C231**: the lower the sun, the larger the air mass: strictly, for seven of the models from the given zenith up to the horizon (`simple` up to but
without the horizon). -/
theorem airmass_increasing (model : String) (z z' : ℝ) (hm : pyLower model ∈ names) (hy : pyLower model ≠ "youngirvine1967")
    (h0 : monotoneFrom (pyLower model) ≤ z) (hlt : z < z') (h1 : z' ≤ 90) (h90 : z' = 90 → pyLower model ≠ "simple") :
    ∃ am am' : ℝ, relativeAirmass (fin z) model = .ok (fin am) ∧ relativeAirmass (fin z') model = .ok (fin am') ∧ 0 < am ∧ am < am' := by
  have hpi := Real.pi_pos
  have hf0 : 0 ≤ monotoneFrom (pyLower model) := by unfold monotoneFrom; split_ifs <;> norm_num
  have hz0 : 0 ≤ z := hf0.trans h0
  refine ⟨_, _, airmass_value model z hz0 (by linarith) hm (fun h => by linarith),
    airmass_value model z' (by linarith) h1 hm (fun h => ⟨h90 h, hy⟩), ?_⟩
  generalize pyLower model = m at *
  have hc := cos_pos' z hz0 (by linarith)
  have hc' := cos_nonneg' z' (by linarith) h1
  have hcc : cosDeg z' < cosDeg z := by
    apply Real.cos_lt_cos_of_nonneg_of_le_pi_div_two
    · positivity
    · have : z' * (π / 180) ≤ 90 * (π / 180) := mul_le_mul_of_nonneg_right h1 (by positivity)
      linarith
    · exact mul_lt_mul_of_pos_right hlt (by positivity)
  have inv (a b : ℝ) (hb : 0 < b) (hab : b < a) : 0 < 1 / a ∧ 1 / a < 1 / b :=
    ⟨one_div_pos.mpr (hb.trans hab), one_div_lt_one_div_of_lt hb hab⟩
  simp only [names, List.mem_cons, List.not_mem_nil, or_false] at hm
  rcases hm with rfl | rfl | rfl | rfl | rfl | rfl | rfl | rfl
  · exact inv _ _ (cos_pos' z' (by linarith) (lt_of_le_of_ne h1 fun e => h90 e rfl)) hcc
  · have hl : (0.1 : ℝ) ≤ z := by simpa [monotoneFrom] using h0
    have hb : (0 : ℝ) < 93.885 - z' := by norm_num; linarith
    have hp : 0 < (93.885 - z') ^ (-1.253 : ℝ) := Real.rpow_pos_of_pos hb _
    exact inv _ _ (by positivity) (k66_anti ⟨hl, by linarith⟩ ⟨by linarith, h1⟩ hlt)
  · exact absurd rfl hy
  · have hl : (0.1 : ℝ) ≤ z := by simpa [monotoneFrom] using h0
    have hb : (0 : ℝ) < 96.07995 - z' := by norm_num; linarith
    have hp : 0 < (96.07995 - z') ^ (-1.6364 : ℝ) := Real.rpow_pos_of_pos hb _
    exact inv _ _ (by positivity) (ky_anti ⟨hl, by linarith⟩ ⟨by linarith, h1⟩ hlt)
  · have hl : (0.1 : ℝ) ≤ z := by simpa [monotoneFrom] using h0
    have hb : (0 : ℝ) < 94.37515 - z' := by norm_num; linarith
    have hp : 0 < (94.37515 - z') ^ (-1.21563 : ℝ) := Real.rpow_pos_of_pos hb _
    have hz' : 0 < z' := by linarith
    exact inv _ _ (by positivity) (g93_anti ⟨hl, by linarith⟩ ⟨by linarith, h1⟩ hlt)
  · have e (w : ℝ) : published "young1994" w = (1.002432 * cosDeg w ^ 2 + 0.148386 * cosDeg w + 0.0096467) /
      (cosDeg w ^ 3 + 0.149864 * cosDeg w ^ 2 + 0.0102963 * cosDeg w + 0.000303978) := rfl
    rw [e, e]
    generalize cosDeg z = c at *
    generalize cosDeg z' = d at *
    refine ⟨by positivity, ?_⟩
    rw [div_lt_div_iff₀ (by positivity) (by positivity)]
    have key : (1.002432 * d ^ 2 + 0.148386 * d + 0.0096467) * (c ^ 3 + 0.149864 * c ^ 2 + 0.0102963 * c + 0.000303978) -
        (1.002432 * c ^ 2 + 0.148386 * c + 0.0096467) * (d ^ 3 + 0.149864 * d ^ 2 + 0.0102963 * d + 0.000303978) =
        (c - d) * (1.002432 * (c ^ 2 * d ^ 2) + 0.148386 * (c * d * (c + d)) + 0.0096467 * (c ^ 2 + c * d + d ^ 2)
          - (1.002432 * 0.0102963 - 0.148386 * 0.149864) * (c * d) - (1.002432 * 0.000303978 - 0.0096467 * 0.149864) * (c + d)
          + (0.0096467 * 0.0102963 - 0.148386 * 0.000303978)) := by ring
    have hcd : 0 < c - d := by linarith
    have hx : 0 ≤ c * d := by positivity
    have : 0 < (1.002432 * (c ^ 2 * d ^ 2) + 0.148386 * (c * d * (c + d)) + 0.0096467 * (c ^ 2 + c * d + d ^ 2)
          - (1.002432 * 0.0102963 - 0.148386 * 0.149864) * (c * d) - (1.002432 * 0.000303978 - 0.0096467 * 0.149864) * (c + d)
          + (0.0096467 * 0.0102963 - 0.148386 * 0.000303978)) := by
      have e1 : (0 : ℝ) ≤ -((1.002432 * 0.0102963 - 0.148386 * 0.149864) * (c * d)) := by
        have : (1.002432 * 0.0102963 - 0.148386 * 0.149864 : ℝ) ≤ 0 := by norm_num
        nlinarith
      have e2 : (0 : ℝ) ≤ -((1.002432 * 0.000303978 - 0.0096467 * 0.149864) * (c + d)) := by
        have : (1.002432 * 0.000303978 - 0.0096467 * 0.149864 : ℝ) ≤ 0 := by norm_num
        nlinarith
      have e3 : (0 : ℝ) < 0.0096467 * 0.0102963 - 0.148386 * 0.000303978 := by norm_num
      have e4 : 0 ≤ 1.002432 * (c ^ 2 * d ^ 2) + 0.148386 * (c * d * (c + d)) + 0.0096467 * (c ^ 2 + c * d + d ^ 2) := by positivity
      linarith
    have := mul_pos hcd this
    rw [← key] at this
    linarith
  · have hl : (0.1 : ℝ) ≤ z := by simpa [monotoneFrom] using h0
    have hq := pick_mono (⟨by linarith, by linarith⟩ : (90 - z') ∈ Icc (0 : ℝ) 90) (⟨by linarith, by linarith⟩ : (90 - z) ∈ Icc (0 : ℝ) 90)
      (by linarith)
    have hu := pick_le (90 - z) (by linarith) (by norm_num at hl ⊢; linarith)
    refine inv _ _ (pick_pos z' (by linarith) h1) ?_
    dsimp only at hq
    have hp : 0 < (90 - z') + 244 / (165 + 47 * (90 - z') ^ (1.1 : ℝ)) := by
      have : (0 : ℝ) ≤ (90 - z') ^ (1.1 : ℝ) := Real.rpow_nonneg (by linarith) _
      have : (0 : ℝ) < 244 / (165 + 47 * (90 - z') ^ (1.1 : ℝ)) := by positivity
      linarith
    apply Real.sin_lt_sin_of_lt_of_le_pi_div_two
    · have : 0 < ((90 - z') + 244 / (165 + 47 * (90 - z') ^ (1.1 : ℝ))) * (π / 180) := by positivity
      linarith
    · have : ((90 - z) + 244 / (165 + 47 * (90 - z) ^ (1.1 : ℝ))) * (π / 180) ≤ 90 * (π / 180) := mul_le_mul_of_nonneg_right hu (by positivity)
      linarith
    · exact mul_lt_mul_of_pos_right hq (by positivity)
  · have hl : (1 : ℝ) ≤ z := by simpa [monotoneFrom] using h0
    have hb : (0 : ℝ) < 96.741 - z' := by norm_num; linarith
    have hp : 0 < (96.741 - z') ^ (1.754 : ℝ) := Real.rpow_pos_of_pos hb _
    have hz' : 0 < z' := by linarith
    exact inv _ _ (by positivity) (g03_anti ⟨hl, by linarith⟩ ⟨by linarith, h1⟩ hlt)

example := airmass_increasing "kastenyoung1989" 20 90 (by decide) (by decide)
  (by rw [show pyLower "kastenyoung1989" = "kastenyoung1989" by decide]; simp [monotoneFrom]; norm_num) (by norm_num) (by norm_num) (fun _ => by decide)

/-- **C231** (limit of the `youngirvine1967` fit): its air mass grows with zenith while `sec z` is at most 16.67 (86.56°) and falls from 16.68 on. -/
theorem youngirvine_peak (z z' : ℝ) (h0 : 0 ≤ z) (hlt : z < z') (h1 : z' < 90) :
    ∃ am am' : ℝ, relativeAirmass (fin z) "youngirvine1967" = .ok (fin am) ∧ relativeAirmass (fin z') "youngirvine1967" = .ok (fin am') ∧
      (1 / cosDeg z' ≤ 16.67 → am < am') ∧ (16.68 ≤ 1 / cosDeg z → am' < am) := by
  have hpi := Real.pi_pos
  have hs : pyLower "youngirvine1967" = "youngirvine1967" := by decide
  have v (w : ℝ) (hw0 : 0 ≤ w) (hw1 : w < 90) := airmass_value "youngirvine1967" w hw0 hw1.le (by decide) (fun h => absurd h hw1.ne)
  rw [hs] at v
  refine ⟨_, _, v z h0 (by linarith), v z' (by linarith) h1, ?_⟩
  have e (w : ℝ) : published "youngirvine1967" w = 1 / cosDeg w * (1 - 0.0012 * ((1 / cosDeg w) ^ 2 - 1)) := rfl
  rw [e, e]
  have hc := cos_pos' z h0 (by linarith)
  have hc' := cos_pos' z' (by linarith) h1
  have hcc : cosDeg z' < cosDeg z := by
    apply Real.cos_lt_cos_of_nonneg_of_le_pi_div_two
    · positivity
    · have : z' * (π / 180) ≤ 90 * (π / 180) := mul_le_mul_of_nonneg_right h1.le (by positivity)
      linarith
    · exact mul_lt_mul_of_pos_right hlt (by positivity)
  have hs0 : 0 < 1 / cosDeg z := by positivity
  have hss : 1 / cosDeg z < 1 / cosDeg z' := one_div_lt_one_div_of_lt hc' hcc
  generalize 1 / cosDeg z = s at *
  generalize 1 / cosDeg z' = s' at *
  have key : s' * (1 - 0.0012 * (s' ^ 2 - 1)) - s * (1 - 0.0012 * (s ^ 2 - 1)) =
      (s' - s) * (1.0012 - 0.0012 * (s' ^ 2 + s * s' + s ^ 2)) := by ring
  constructor
  · intro h
    have : 0 < 1.0012 - 0.0012 * (s' ^ 2 + s * s' + s ^ 2) := by nlinarith
    have := mul_pos (sub_pos.mpr hss) this
    linarith
  · intro h
    have : 0 < 0.0012 * (s' ^ 2 + s * s' + s ^ 2) - 1.0012 := by nlinarith
    have := mul_pos (sub_pos.mpr hss) this
    linarith

example := youngirvine_peak 30 60 (by norm_num) (by norm_num) (by norm_num)

/-- **C231** (finding): with the sun overhead the default model gives slightly less than one, and slightly less still a thousandth of a degree away. -/
theorem kastenyoung_zenith :
    ∃ a b : ℝ, relativeAirmass (fin 0) "kastenyoung1989" = .ok (fin a) ∧ relativeAirmass (fin 0.001) "kastenyoung1989" = .ok (fin b) ∧
      b < a ∧ a < 1 := by
  have hpi := Real.pi_pos
  have hs : pyLower "kastenyoung1989" = "kastenyoung1989" := by decide
  have v (w : ℝ) (hw0 : 0 ≤ w) (hw1 : w ≤ 90) (hne : w ≠ 90) := airmass_value "kastenyoung1989" w hw0 hw1 (by decide) (fun h => absurd h hne)
  rw [hs] at v
  refine ⟨_, _, v 0 le_rfl (by norm_num) (by norm_num), v 0.001 (by norm_num) (by norm_num) (by norm_num), ?_⟩
  have e (w : ℝ) : published "kastenyoung1989" w = 1 / (cosDeg w + 0.50572 * (96.07995 - w) ^ (-1.6364 : ℝ)) := rfl
  rw [e, e]
  have c0 : cosDeg 0 = 1 := by simp [cosDeg]
  have hk : π / 180 ≤ 0.02 := by have := Real.pi_lt_d2; linarith
  have c1 : 1 - 2e-10 ≤ cosDeg 0.001 := by
    have h := Real.one_sub_sq_div_two_le_cos (x := 0.001 * (π / 180))
    have h2 : (0.001 * (π / 180)) ^ 2 ≤ (0.001 * 0.02) ^ 2 := by gcongr
    have : 1 - (0.001 * 0.02 : ℝ) ^ 2 / 2 ≤ cosDeg 0.001 := by
      unfold cosDeg
      linarith
    refine le_trans ?_ this
    norm_num
  have p0 : (0 : ℝ) < 96.07995 ^ (-1.6364 : ℝ) := Real.rpow_pos_of_pos (by norm_num) _
  -- the power grows by at least the linear term
  have hr : (96.07995 : ℝ) ^ (-1.6364 : ℝ) * (1 + 0.001 / 96.07995) ≤ (96.07995 - 0.001) ^ (-1.6364 : ℝ) := by
    have f : (96.07995 - 0.001 : ℝ) = 96.07995 * (1 - 0.001 / 96.07995) := by norm_num
    have g0 : (0 : ℝ) ≤ 1 - 0.001 / 96.07995 := by norm_num
    rw [f, Real.mul_rpow (by norm_num) g0]
    apply mul_le_mul_of_nonneg_left _ p0.le
    rw [Real.rpow_neg g0, ← Real.inv_rpow g0]
    have h1 : (1 + 0.001 / 96.07995 : ℝ) ≤ (1 - 0.001 / 96.07995)⁻¹ := by norm_num
    refine h1.trans ?_
    conv_lhs => rw [← Real.rpow_one (1 - 0.001 / 96.07995 : ℝ)⁻¹]
    exact Real.rpow_le_rpow_of_exponent_le (by norm_num) (by norm_num)
  have hl : (1e-4 : ℝ) ≤ 96.07995 ^ (-1.6364 : ℝ) := by
    have h1 : (100 : ℝ) ^ (-2 : ℝ) ≤ 100 ^ (-1.6364 : ℝ) := Real.rpow_le_rpow_of_exponent_le (by norm_num) (by norm_num)
    have h2 : (100 : ℝ) ^ (-1.6364 : ℝ) ≤ 96.07995 ^ (-1.6364 : ℝ) :=
      Real.rpow_le_rpow_of_nonpos (by norm_num) (by norm_num) (by norm_num)
    have h3 : (100 : ℝ) ^ (-2 : ℝ) = 1e-4 := by
      rw [show (-2 : ℝ) = ((-2 : ℤ) : ℝ) by norm_num, Real.rpow_intCast]; norm_num
    linarith
  rw [c0, sub_zero]
  generalize (96.07995 : ℝ) ^ (-1.6364 : ℝ) = P at *
  generalize ((96.07995 : ℝ) - 0.001) ^ (-1.6364 : ℝ) = Q at *
  constructor
  · apply one_div_lt_one_div_of_lt (by positivity)
    have : P * (0.001 / 96.07995) ≥ 1e-4 * (0.001 / 96.07995) := by gcongr
    have h5 : P * (1 + 0.001 / 96.07995) = P + P * (0.001 / 96.07995) := by ring
    have h6 : (1e-4 : ℝ) * (0.001 / 96.07995) ≥ 1e-9 := by norm_num
    have h7 : (0.50572 : ℝ) * 1e-9 > 2e-10 := by norm_num
    linarith
  · rw [div_lt_one (by positivity)]
    have : 0 < 0.50572 * P := by positivity
    linarith

/-! ### The other formulas of the module -/

/-- **C231**: the standard atmosphere, pressure from altitude and altitude from pressure. -/
theorem standard_atmosphere (h p : ℝ) (hh : h < 44331.514) (hp : 0 ≤ p) :
    alt2pres (fin h) = fin (100 * ((44331.514 - h) / 11880.516) ^ (1 / 0.1902632 : ℝ)) ∧
    pres2alt (fin p) = fin (44331.5 - 4946.62 * p ^ (0.190263 : ℝ)) := by
  constructor
  · have : (0 : ℝ) < (44331.514 - h) / 11880.516 := div_pos (by linarith) (by norm_num)
    simp only [alt2pres, ofScientific_eq, fin_sub, one_eq, ofNat_eq]
    rw [fin_div (by norm_num : (11880.516 : ℝ) ≠ 0), fin_div (by norm_num : (0.1902632 : ℝ) ≠ 0), rpow_fin_pos this, fin_mul]
  · simp only [pres2alt, ofScientific_eq]
    rw [rpow_fin_nonneg hp (by norm_num), fin_mul, fin_sub]

example := standard_atmosphere 1830 81000 (by norm_num) (by norm_num)

/-- **C231**: precipitable water by Gueymard: the scale height of water vapour times the vapour density at the ground, at least 0.1 cm. -/
theorem precipitable_water (T rh : ℝ) (hT : -273.15 < T) :
    let K := T + 273.15
    let scaleHeight := 0.4976 + 1.5265 * (K / 273.15) + Real.exp (13.6897 * (K / 273.15) - 14.9188 * (K / 273.15) ^ 3)
    let density := 216.7 * rh / (100 * K) * Real.exp (22.330 - 49.140 * (100 / K) - 10.922 * (100 / K) ^ 2 - 0.39015 * K / 100)
    gueymard94Pw (fin T) (fin rh) = fin (max (0.1 * scaleHeight * density) 0.1) := by
  have hK : 0 < T + 273.15 := by linarith
  dsimp only
  generalize hKdef : T + 273.15 = K at *
  have hK100 : (100 * K) ≠ 0 := by positivity
  simp only [gueymard94Pw, ofScientific_eq, fin_add]
  rw [hKdef, fin_div (by norm_num : (273.15 : ℝ) ≠ 0)]
  simp only [ofNat_eq, fin_mul, fin_div hK.ne', fin_div hK100, fin_pow, fin_sub,
    fin_div (by norm_num : (100 : ℝ) ≠ 0), exp_fin, fin_add, maximum_fin]

example := precipitable_water 20 60 (by norm_num)

/-- **C231**: broadband aerosol depth from the depths at 380 and 500 nm. -/
theorem broadband_aerosol (a b : ℝ) : birdHulstrom80 (fin a) (fin b) = fin (0.27583 * a + 0.35 * b) := by
  simp only [birdHulstrom80, ofScientific_eq, fin_mul, fin_add]

example : birdHulstrom80 (fin 0.1) (fin 0.2) = fin (0.27583 * 0.1 + 0.35 * 0.2) := broadband_aerosol 0.1 0.2

end Pvlib.Props.AirMass
end
