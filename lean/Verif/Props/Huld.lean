import Verif.Props.PvArray
import Mathlib.Analysis.Calculus.Deriv.Add
import Mathlib.Analysis.Calculus.Deriv.Mul
import Mathlib.Analysis.Calculus.Deriv.MeanValue
import Mathlib.Analysis.SpecialFunctions.Log.Deriv
import Mathlib.Analysis.Complex.ExponentialBounds

/-! # Property C233: Huld's model with the coefficients it ships -/

noncomputable section
open scoped Classical
namespace Pvlib.Props.Huld
open Fl Pvlib.PvArray Pvlib.Tools

/-- What the polynomial of a coefficient set has to satisfy, in the logarithm `L` of the irradiance (80 to 2000 W/m²) and
the temperature above 25 °C (-40 to 100 °C). -/
private structure Shape (a b c d e f : ℝ) : Prop where
  pos : ∀ L t : ℝ, -2.6 ≤ L → L ≤ 0.7 → -65 ≤ t → t ≤ 75 → 0 < 1 + a * L + b * L ^ 2 + c * t + d * t * L + e * t * L ^ 2 + f * t ^ 2
  light : ∀ L t : ℝ, -2.6 ≤ L → L ≤ 0.7 → -65 ≤ t → t ≤ 75 →
    0 < 1 + a * L + b * L ^ 2 + c * t + d * t * L + e * t * L ^ 2 + f * t ^ 2 + a + 2 * b * L + d * t + 2 * e * t * L
  heat : ∀ L s : ℝ, -2.6 ≤ L → L ≤ 0.7 → -130 ≤ s → s ≤ 150 → c + d * L + e * L ^ 2 + f * s < 0
  dim : ∀ L : ℝ, L ≤ -9 → 1 + a * L + b * L ^ 2 < 0

private theorem lin {A B t : ℝ} (h1 : 0 < A + B * (-65)) (h2 : 0 < A + B * 75) (ht : -65 ≤ t) (ht' : t ≤ 75) : 0 < A + B * t := by
  have a1 := mul_nonneg h1.le (show 0 ≤ 75 - t by linarith)
  have a2 := mul_nonneg h2.le (show 0 ≤ t + 65 by linarith)
  by_contra hc
  push Not at hc
  rcases eq_or_lt_of_le ht with h | h
  · rw [← h] at hc; linarith
  · have := mul_pos h2 (show 0 < t + 65 by linarith)
    linarith

private theorem shape_of {a b c d e f : ℝ} (m : ℝ) (hm : ∀ t : ℝ, -65 ≤ t → t ≤ 75 → m ≤ f * t ^ 2)
    (p1 : ∀ L : ℝ, -2.6 ≤ L → L ≤ 0.7 → 0 < (1 + m + a * L + b * L ^ 2) + (c + d * L + e * L ^ 2) * (-65))
    (p2 : ∀ L : ℝ, -2.6 ≤ L → L ≤ 0.7 → 0 < (1 + m + a * L + b * L ^ 2) + (c + d * L + e * L ^ 2) * 75)
    (q1 : ∀ L : ℝ, -2.6 ≤ L → L ≤ 0.7 → 0 < (1 + m + a * L + b * L ^ 2 + a + 2 * b * L) + (c + d * L + e * L ^ 2 + d + 2 * e * L) * (-65))
    (q2 : ∀ L : ℝ, -2.6 ≤ L → L ≤ 0.7 → 0 < (1 + m + a * L + b * L ^ 2 + a + 2 * b * L) + (c + d * L + e * L ^ 2 + d + 2 * e * L) * 75)
    (r : ∀ L : ℝ, -2.6 ≤ L → L ≤ 0.7 → c + d * L + e * L ^ 2 + 150 * |f| < 0)
    (dim : ∀ L : ℝ, L ≤ -9 → 1 + a * L + b * L ^ 2 < 0) : Shape a b c d e f where
  pos L t h1 h2 h3 h4 := by
    have := lin (p1 L h1 h2) (p2 L h1 h2) h3 h4
    have := hm t h3 h4
    linarith
  light L t h1 h2 h3 h4 := by
    have := lin (q1 L h1 h2) (q2 L h1 h2) h3 h4
    have := hm t h3 h4
    linarith
  heat L s h1 h2 h3 h4 := by
    have := r L h1 h2
    have h5 : f * s ≤ |f| * 150 := by
      have : |s| ≤ 150 := abs_le.mpr ⟨by linarith, h4⟩
      calc f * s ≤ |f * s| := le_abs_self _
        _ = |f| * |s| := abs_mul f s
        _ ≤ |f| * 150 := mul_le_mul_of_nonneg_left this (abs_nonneg f)
    linarith
  dim := dim

local macro "quad" : tactic =>
  `(tactic| (intro L h1 h2; have h3 : 0 ≤ (L + 2.6) * (0.7 - L) := mul_nonneg (by linarith) (by linarith); norm_num at *; nlinarith [sq_nonneg L, sq_nonneg (L - 1), sq_nonneg (L + 1)]))
local macro "far" : tactic => `(tactic| (intro L h; norm_num at *; nlinarith))

private theorem csi5 : Shape (-17237 / 1000000) (-40465 / 1000000) (-4702 / 1000000) (149 / 1000000) (170 / 1000000) (5 / 1000000) := by
  refine shape_of 0 (fun t _ _ => by positivity) (by quad) (by quad) (by quad) (by quad) ?_ (by far)
  rw [abs_of_pos (by norm_num)]; quad

private theorem cis5 : Shape (-5554 / 1000000) (-38724 / 1000000) (-3723 / 1000000) (-905 / 1000000) (-1256 / 1000000) (1 / 1000000) := by
  refine shape_of 0 (fun t _ _ => by positivity) (by quad) (by quad) (by quad) (by quad) ?_ (by far)
  rw [abs_of_pos (by norm_num)]; quad

private theorem cdte5 : Shape (-46689 / 1000000) (-72844 / 1000000) (-2262 / 1000000) (276 / 1000000) (159 / 1000000) (-6 / 1000000) := by
  refine shape_of (-0.034) (fun t h1 h2 => by norm_num; nlinarith) (by quad) (by quad) (by quad) (by quad) ?_ (by far)
  rw [abs_of_neg (by norm_num)]; quad

private theorem csi6 : Shape (-6756 / 1000000) (-16444 / 1000000) (-3015 / 1000000) (-45 / 1000000) (-43 / 1000000) 0 := by
  refine shape_of 0 (fun t _ _ => by simp) (by quad) (by quad) (by quad) (by quad) ?_ (by far)
  rw [abs_zero]; quad

private theorem cis6 : Shape (-11001 / 1000000) (-29734 / 1000000) (-2887 / 1000000) (217 / 1000000) (-163 / 1000000) 0 := by
  refine shape_of 0 (fun t _ _ => by simp) (by quad) (by quad) (by quad) (by quad) ?_ (by far)
  rw [abs_zero]; quad

private theorem cdte6 : Shape (-20644 / 1000000) (-35136 / 1000000) (-3406 / 1000000) (73 / 1000000) (-141 / 1000000) (2 / 1000000) := by
  refine shape_of 0 (fun t _ _ => by positivity) (by quad) (by quad) (by quad) (by quad) ?_ (by far)
  rw [abs_of_pos (by norm_num)]; quad

/-- The six coefficients behind a name, in the formula of the model. -/
private theorem table (kv ct : String) (hv : pyLower kv = "pvgis5" ∨ pyLower kv = "pvgis6")
    (hc : pyLower ct = "csi" ∨ pyLower ct = "cis" ∨ pyLower ct = "cdte") :
    ∃ a b c d e f : ℝ, Shape a b c d e f ∧ ∀ p : ℝ, inferKHuld ct (fin p) kv =
      .ok ⟨fin (a * p), fin (b * p), fin (c * p), fin (d * p), fin (e * p), fin (f * p)⟩ := by
  have hne : "pvgis6" ≠ "pvgis5" := by decide
  have h1 : "cis" ≠ "csi" := by decide
  have h2 : "cdte" ≠ "csi" := by decide
  have h3 : "cdte" ≠ "cis" := by decide
  rcases hv with hv | hv <;> rcases hc with hc | hc | hc
  · refine ⟨_, _, _, _, _, _, csi5, fun p => ?_⟩
    simp only [inferKHuld, hv, hc, huldPvgis5, PyDict.get?, HuldK.scale, if_true, ofScientific_eq, neg_fin, fin_mul]
    norm_num
  · refine ⟨_, _, _, _, _, _, cis5, fun p => ?_⟩
    simp only [inferKHuld, hv, hc, huldPvgis5, PyDict.get?, HuldK.scale, if_true, if_neg h1.symm, ofScientific_eq, neg_fin, fin_mul]
    norm_num
  · refine ⟨_, _, _, _, _, _, cdte5, fun p => ?_⟩
    simp only [inferKHuld, hv, hc, huldPvgis5, PyDict.get?, HuldK.scale, if_true, if_neg h2.symm, if_neg h3.symm, ofScientific_eq, neg_fin, fin_mul]
    norm_num
  · refine ⟨_, _, _, _, _, _, csi6, fun p => ?_⟩
    simp only [inferKHuld, hv, hc, huldPvgis6, PyDict.get?, HuldK.scale, if_true, if_neg hne, ofScientific_eq, neg_fin, zero_eq, fin_mul]
    norm_num
  · refine ⟨_, _, _, _, _, _, cis6, fun p => ?_⟩
    simp only [inferKHuld, hv, hc, huldPvgis6, PyDict.get?, HuldK.scale, if_true, if_neg hne, if_neg h1.symm, ofScientific_eq, neg_fin, zero_eq, fin_mul]
    norm_num
  · refine ⟨_, _, _, _, _, _, cdte6, fun p => ?_⟩
    simp only [inferKHuld, hv, hc, huldPvgis6, PyDict.get?, HuldK.scale, if_true, if_neg hne, if_neg h2.symm, if_neg h3.symm, ofScientific_eq, neg_fin, fin_mul]
    norm_num

private theorem log_range {g : ℝ} (h1 : 80 ≤ g) (h2 : g ≤ 2000) : -2.6 ≤ Real.log (g / 1000) ∧ Real.log (g / 1000) ≤ 0.7 := by
  constructor
  · rw [Real.le_log_iff_exp_le (by linarith)]
    have hq : (1 + 0.325 + 0.325 ^ 2 / 2 : ℝ) ≤ Real.exp 0.325 := Real.quadratic_le_exp_of_nonneg (by norm_num)
    have h8 : Real.exp 2.6 = Real.exp 0.325 ^ 8 := by rw [← Real.exp_nat_mul]; norm_num
    have h9 : (12.5 : ℝ) ≤ Real.exp 2.6 := by
      rw [h8]
      calc (12.5 : ℝ) ≤ (1 + 0.325 + 0.325 ^ 2 / 2) ^ 8 := by norm_num
        _ ≤ _ := pow_le_pow_left₀ (by norm_num) hq 8
    rw [Real.exp_neg, inv_le_comm₀ (Real.exp_pos _) (by linarith)]
    refine le_trans ?_ h9
    rw [inv_div, div_le_iff₀ (by linarith)]
    linarith
  · have := Real.log_two_lt_d9
    have : Real.log (g / 1000) ≤ Real.log 2 := Real.log_le_log (by linarith) (by linarith)
    linarith

private theorem log_dim {g : ℝ} (h1 : 0 < g) (h2 : g ≤ 0.1) : Real.log (g / 1000) ≤ -9 := by
  rw [Real.log_le_iff_le_exp (by positivity), Real.exp_neg, le_inv_comm₀ (by positivity) (Real.exp_pos _)]
  have h9 : Real.exp 9 = Real.exp 1 ^ 9 := by rw [← Real.exp_nat_mul]; norm_num
  have := Real.exp_one_lt_d9
  calc Real.exp 9 = Real.exp 1 ^ 9 := h9
    _ ≤ 2.7182818286 ^ 9 := pow_le_pow_left₀ (Real.exp_pos _).le this.le 9
    _ ≤ 10000 := by norm_num
    _ ≤ (g / 1000)⁻¹ := by rw [inv_div, le_div_iff₀ h1]; linarith

/-- **C233**: `huld` with a cell type it knows, in either version and any capitalisation, for a positive nameplate power:
between 80 and 2000 W/m² and -40 and 100 °C the power is positive, grows strictly with irradiance and falls strictly with
module temperature; but in the faintest light (up to a tenth of a W/m², at 25 °C) it is negative. -/
theorem huld_shipped (kv ct : String) (hv : pyLower kv = "pvgis5" ∨ pyLower kv = "pvgis6")
    (hc : pyLower ct = "csi" ∨ pyLower ct = "cis" ∨ pyLower ct = "cdte") {p : ℝ} (hp : 0 < p) :
    ∃ P : ℝ → ℝ → ℝ, (∀ g t, huld (fin g) (fin t) (fin p) none (some ct) kv = .ok (fin (P g t))) ∧
      (∀ g t, 80 ≤ g → g ≤ 2000 → -40 ≤ t → t ≤ 100 → 0 < P g t) ∧
      (∀ g g' t, 80 ≤ g → g < g' → g' ≤ 2000 → -40 ≤ t → t ≤ 100 → P g t < P g' t) ∧
      (∀ g t t', 80 ≤ g → g ≤ 2000 → -40 ≤ t → t < t' → t' ≤ 100 → P g t' < P g t) ∧
      (∀ g, 0 < g → g ≤ 0.1 → P g 25 < 0) := by
  obtain ⟨a, b, c, d, e, f, hS, hk⟩ := table kv ct hv hc
  set Q : ℝ → ℝ → ℝ := fun L t => 1 + a * L + b * L ^ 2 + c * t + d * t * L + e * t * L ^ 2 + f * t ^ 2 with hQ
  refine ⟨fun g t => p * (g / 1000 * Q (if 0 < g then Real.log (g / 1000) else 0) (t - 25)), ?_, ?_, ?_, ?_, ?_⟩
  · intro g t
    simp only [huld, hk p, huldPower, logWhere, ofNat_eq]
    rw [fin_div (by norm_num)]
    by_cases hg : 0 < g
    · have hg' : 0 < g / 1000 := by positivity
      simp only [zero_eq, fin_lt, hg, hg', if_true, log_fin hg', fin_sub, fin_pow, fin_mul, fin_add, Except.ok.injEq, fin_inj, hQ]
      ring
    · have hg' : ¬ 0 < g / 1000 := fun h => hg (by linarith)
      simp only [zero_eq, fin_lt, hg, hg', if_false, fin_sub, fin_pow, fin_mul, fin_add, Except.ok.injEq, fin_inj, hQ]
      ring
  · intro g t h1 h2 h3 h4
    have hg : 0 < g := by linarith
    simp only [if_pos hg]
    obtain ⟨l1, l2⟩ := log_range h1 h2
    exact mul_pos hp (mul_pos (by positivity) (hS.pos _ _ l1 l2 (by linarith) (by linarith)))
  · intro g g' t h1 h2 h3 h4 h5
    have hg : 0 < g := by linarith
    have hg' : 0 < g' := by linarith
    simp only [if_pos hg, if_pos hg']
    refine mul_lt_mul_of_pos_left ?_ hp
    set s := t - 25 with hs
    have hd : ∀ x : ℝ, 0 < x → HasDerivAt (fun x : ℝ => x * Q (Real.log x) s)
        (Q (Real.log x) s + a + 2 * b * Real.log x + d * s + 2 * e * s * Real.log x) x := by
      intro x hx
      have hl := Real.hasDerivAt_log hx.ne'
      have hl2 := hl.fun_mul hl
      have h := (hasDerivAt_id x).fun_mul
        ((((hl.const_mul (a + d * s)).fun_add (hl2.const_mul (b + e * s))).const_add (1 + c * s + f * s ^ 2)))
      refine (h.congr_of_eventuallyEq (Filter.Eventually.of_forall fun y => ?_)).congr_deriv ?_
      · simp only [hQ, id]; ring
      · simp only [hQ, id]; field_simp; ring
    have hmono : StrictMonoOn (fun x : ℝ => x * Q (Real.log x) s) (Set.Icc 0.08 2) := by
      apply strictMonoOn_of_deriv_pos (convex_Icc _ _)
      · intro x hx
        exact (hd x (by have := hx.1; norm_num at this; linarith)).continuousAt.continuousWithinAt
      · intro x hx
        rw [interior_Icc] at hx
        have hx1 : (0.08 : ℝ) < x := hx.1
        have hx0 : 0 < x := by norm_num at hx1; linarith
        rw [(hd x hx0).deriv]
        have e1 : x = (1000 * x) / 1000 := by ring
        obtain ⟨l1, l2⟩ := log_range (g := 1000 * x) (by norm_num at hx1; linarith) (by linarith [hx.2])
        rw [← e1] at l1 l2
        exact hS.light _ _ l1 l2 (by linarith) (by linarith)
    exact hmono ⟨by norm_num; linarith, by linarith⟩ ⟨by norm_num; linarith, by linarith⟩ (by linarith)
  · intro g t t' h1 h2 h3 h4 h5
    have hg : 0 < g := by linarith
    simp only [if_pos hg]
    refine mul_lt_mul_of_pos_left (mul_lt_mul_of_pos_left ?_ (by positivity)) hp
    obtain ⟨l1, l2⟩ := log_range h1 h2
    have h := hS.heat (Real.log (g / 1000)) ((t - 25) + (t' - 25)) l1 l2 (by linarith) (by linarith)
    have := mul_neg_of_pos_of_neg (sub_pos.mpr h4) h
    simp only [hQ]
    nlinarith
  · intro g h1 h2
    simp only [if_pos h1]
    have := hS.dim _ (log_dim h1 h2)
    refine mul_neg_of_pos_of_neg hp (mul_neg_of_pos_of_neg (by positivity) ?_)
    simp only [hQ, sub_self]
    linarith

example := huld_shipped "PVGIS6" "cSi" (Or.inr (by decide +kernel)) (Or.inl (by decide +kernel)) (p := 300) (by norm_num)

end Pvlib.Props.Huld
