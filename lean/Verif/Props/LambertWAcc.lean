import Verif.Props.LambertW
import Mathlib.Analysis.SpecialFunctions.Log.Deriv
import Mathlib.Analysis.Complex.ExponentialBounds

/-! # Property C70: accuracy of pvlib's own Lambert W routines -/

noncomputable section
open scoped Classical
open Real
namespace Pvlib.Props.LambertW
open Fl Pvlib.SingleDiode Pvlib.Props.SingleDiode

/-! ### The large branch: Newton steps for `w + log w = L` -/

/-- One Newton step in real numbers. -/
private def newtonStep (L w : ℝ) : ℝ := w * (1 - Real.log w + L) / (1 + w)

private theorem newton_step {L W w : ℝ} (hW : W + Real.log W = L) (hw : 0 < w) (hle : w ≤ W) :
    w ≤ newtonStep L w ∧ newtonStep L w ≤ W ∧ W - newtonStep L w ≤ (W - w) ^ 2 / (2 * w * (1 + w)) := by
  have hWp : 0 < W := lt_of_lt_of_le hw hle
  have h1w : 0 < 1 + w := by linarith
  set u := (W - w) / w with hu
  have hu0 : 0 ≤ u := div_nonneg (by linarith) hw.le
  have h1u : 1 + u = W / w := by rw [hu]; field_simp; ring
  have hlog : Real.log (1 + u) = Real.log W - Real.log w := by rw [h1u, Real.log_div hWp.ne' hw.ne']
  have hub : Real.log (1 + u) ≤ u := by
    have := Real.log_le_sub_one_of_pos (show 0 < 1 + u by linarith); linarith
  have hlb : u - u ^ 2 / 2 ≤ Real.log (1 + u) := by
    refine le_trans ?_ (Real.le_log_one_add_of_nonneg hu0)
    rw [le_div_iff₀ (by linarith)]
    nlinarith [pow_nonneg hu0 3]
  have key : W - newtonStep L w = w * (u - Real.log (1 + u)) / (1 + w) := by
    rw [newtonStep, hlog, hu, ← hW]; field_simp; ring
  refine ⟨?_, ?_, ?_⟩
  · rw [newtonStep, le_div_iff₀ h1w]
    have hm : Real.log w ≤ Real.log W := Real.log_le_log hw hle
    have : w * (w + Real.log w) ≤ w * L := mul_le_mul_of_nonneg_left (by linarith) hw.le
    nlinarith
  · have : 0 ≤ w * (u - Real.log (1 + u)) / (1 + w) := by
      apply div_nonneg _ h1w.le
      exact mul_nonneg hw.le (by linarith)
    linarith
  · rw [key, div_le_div_iff₀ h1w (by positivity)]
    have h2 : u - Real.log (1 + u) ≤ u ^ 2 / 2 := by linarith
    have h3 : u ^ 2 * w ^ 2 = (W - w) ^ 2 := by rw [hu]; field_simp
    have h4 := mul_le_mul_of_nonneg_left h2 (show 0 ≤ 2 * w ^ 2 * (1 + w) by positivity)
    nlinarith

private theorem exp_one_facts : 2.718 < Real.exp 1 ∧ Real.exp 1 < 2.7183 :=
  ⟨lt_trans (by norm_num) Real.exp_one_gt_d9, lt_trans Real.exp_one_lt_d9 (by norm_num)⟩

private theorem log_le_div_e {L : ℝ} (hL : 0 < L) : Real.log L ≤ 0.368 * L := by
  have h := Real.log_le_sub_one_of_pos (show 0 < 0.368 * L by positivity)
  rw [Real.log_mul (by norm_num) hL.ne'] at h
  have h2 : -1 ≤ Real.log 0.368 := by
    rw [Real.le_log_iff_exp_le (by norm_num), Real.exp_neg]
    rw [inv_le_comm₀ (Real.exp_pos 1) (by norm_num)]
    have := exp_one_facts.1
    norm_num at this ⊢
    linarith
  linarith

private theorem logw_start {L W : ℝ} (hL : 4.5 ≤ L) (hWp : 0 < W) (hW : W + Real.log W = L) :
    2.84 ≤ L - Real.log L ∧ L - Real.log L ≤ W ∧ W - (L - Real.log L) ≤ 0.46 := by
  have hLp : 0 < L := by linarith
  have h1 := log_le_div_e hLp
  have h2 : 2.84 ≤ L - Real.log L := by norm_num at h1 ⊢; linarith
  have hp : 0 < L - Real.log L := by linarith
  have h0 : 0 ≤ Real.log L := Real.log_nonneg (by linarith)
  have hr : (1 - 0.368 : ℝ) ≤ (L - Real.log L) / L := by
    rw [le_div_iff₀ hLp]; norm_num at h1 ⊢; linarith
  have hr1 : (L - Real.log L) / L ≤ 1 := by rw [div_le_one hLp]; linarith
  have hlr : Real.log ((L - Real.log L) / L) = Real.log (L - Real.log L) - Real.log L := Real.log_div hp.ne' hLp.ne'
  have hlr1 : Real.log ((L - Real.log L) / L) ≤ 0 := Real.log_nonpos (by linarith) hr1
  have hlr2 : -0.46 ≤ Real.log ((L - Real.log L) / L) := by
    rw [Real.le_log_iff_exp_le (by positivity)]
    refine le_trans ?_ hr
    rw [Real.exp_neg, inv_le_comm₀ (Real.exp_pos _) (by norm_num)]
    have := Real.sum_le_exp_of_nonneg (show (0 : ℝ) ≤ 0.46 by norm_num) 5
    refine le_trans ?_ this
    norm_num [Finset.sum_range_succ, Nat.factorial]
  -- `w0 + log w0 ≤ L = W + log W`
  have hle : L - Real.log L ≤ W := by
    by_contra hc
    push Not at hc
    have := Real.log_le_log hWp hc.le
    linarith
  refine ⟨h2, hle, ?_⟩
  have := Real.log_le_log hp hle
  linarith

/-- **C70**: for `L ≥ 4.5` (the routine is used for `L > log 100 > 4.6`), `_log_lambertw` returns the solution of
`w + log w = L` with an error of at most `10⁻¹²`, from below. -/
theorem logLambertw_accuracy {L W : ℝ} (hL : 4.5 ≤ L) (hWp : 0 < W) (hW : W + Real.log W = L) :
    ∃ w, logLambertw (fin L) = fin w ∧ w ≤ W ∧ W - w ≤ 1e-12 := by
  obtain ⟨h0, h1, h2⟩ := logw_start hL hWp hW
  set w0 := L - Real.log L with hw0
  have p0 : 0 < w0 := by linarith
  obtain ⟨a1, b1, c1⟩ := newton_step hW p0 h1
  have p1 : 0 < newtonStep L w0 := by linarith
  obtain ⟨a2, b2, c2⟩ := newton_step hW p1 b1
  have p2 : 0 < newtonStep L (newtonStep L w0) := by linarith
  obtain ⟨a3, b3, c3⟩ := newton_step hW p2 b2
  have est : ∀ w e : ℝ, 2.84 ≤ w → w ≤ W → W - w ≤ e → (W - w) ^ 2 / (2 * w * (1 + w)) ≤ e ^ 2 / 21.8 := by
    intro w e hw hwW he
    have hw' : (0 : ℝ) < w := by linarith
    have : (21.8 : ℝ) ≤ 2 * w * (1 + w) := by nlinarith
    have hsq : (W - w) ^ 2 ≤ e ^ 2 := pow_le_pow_left₀ (by linarith) he 2
    exact div_le_div₀ (sq_nonneg e) hsq (by norm_num) this
  have e1 := le_trans c1 (est w0 _ h0 h1 h2)
  have e2 := le_trans c2 (est _ _ (by linarith) b1 e1)
  have e3 := le_trans c3 (est _ _ (by linarith) b2 e2)
  refine ⟨newtonStep L (newtonStep L (newtonStep L w0)), ?_, b3, le_trans e3 (by norm_num)⟩
  have step : ∀ w : ℝ, 0 < w → logLambertwStep (fin L) (fin w) = fin (newtonStep L w) := by
    intro w hw
    have : (1 + w) ≠ 0 := by linarith
    simp only [logLambertwStep, log_fin hw, one_eq, fin_sub, fin_add, fin_mul, fin_div this, newtonStep]
  have hLp : (0 : ℝ) < L := by linarith
  simp only [logLambertw, log_fin hLp, fin_sub, ← hw0, step w0 p0, step _ p1, step _ p2]

example := logLambertw_accuracy (L := Real.exp 2 + 2) (W := Real.exp 2) (by have := Real.add_one_le_exp (2:ℝ); linarith) (Real.exp_pos _)
  (by rw [Real.log_exp])

/-! ### The small branch: Halley steps for `w e^w = x` -/

/-- One Halley step in real numbers. -/
private def halley (z g : ℝ) : ℝ :=
  g - (g * Real.exp g - z) * (g + 1) / (Real.exp g * (g + 1) ^ 2 - 0.5 * (g + 2) * (g * Real.exp g - z))

private def num (g d : ℝ) : ℝ :=
  (d - (Real.exp d - 1) * (1 - d / 2)) * g ^ 2 + (1 + d - Real.exp d * (1 - d ^ 2 / 2)) * g + d * (1 - Real.exp d * (1 - d))

private def den (g d : ℝ) : ℝ := (g + 1) ^ 2 + (g + 2) / 2 * (g * (Real.exp d - 1) + d * Real.exp d)

private theorem den_pos {g d : ℝ} (hg : 0 ≤ g) (hd : 0 ≤ d) : 0 < den g d := by
  have h1 : 0 ≤ Real.exp d - 1 := by linarith [Real.add_one_le_exp d]
  have h2 := Real.exp_pos d
  unfold den
  positivity

private theorem halley_denom (g d : ℝ) : Real.exp g * (g + 1) ^ 2 -
    0.5 * (g + 2) * (g * Real.exp g - (g + d) * Real.exp (g + d)) = Real.exp g * den g d := by
  rw [den, Real.exp_add]; ring

private theorem halley_error {g d : ℝ} (hg : 0 ≤ g) (hd : 0 ≤ d) :
    (g + d) - halley ((g + d) * Real.exp (g + d)) g = num g d / den g d := by
  have hD := (den_pos hg hd).ne'
  have hE := (Real.exp_pos g).ne'
  rw [halley, halley_denom]
  have e : (g * Real.exp g - (g + d) * Real.exp (g + d)) * (g + 1) / (Real.exp g * den g d) =
      (g - (g + d) * Real.exp d) * (g + 1) / den g d := by
    rw [Real.exp_add]; field_simp
  rw [e, eq_div_iff hD]
  have : (g + d - (g - (g - (g + d) * Real.exp d) * (g + 1) / den g d)) * den g d =
      d * den g d + (g - (g + d) * Real.exp d) * (g + 1) := by field_simp; ring
  rw [this, num, den]
  ring

private theorem exp_lb3 {d : ℝ} (hd : 0 ≤ d) : 1 + d + d ^ 2 / 2 + d ^ 3 / 6 ≤ Real.exp d := by
  have := Real.sum_le_exp_of_nonneg hd 4
  norm_num [Finset.sum_range_succ, Nat.factorial] at this
  linarith

private theorem num_bounds {g d : ℝ} (hg : 0 ≤ g) (hd : 0 ≤ d) (hd1 : d ≤ 0.63) : 0 ≤ num g d ∧
    num g d ≤ d ^ 3 * ((1 + d) / 12 * g ^ 2 + (1 / 3 + d / 4 + d ^ 2 / 12) * g + (1 / 2 + d / 3 + d ^ 2 / 6)) := by
  have hE := exp_lb3 hd
  set E := Real.exp d with hEd
  have hEp : 0 < E := Real.exp_pos d
  have hE1 : 0 ≤ E - 1 := by nlinarith [sq_nonneg d, pow_nonneg hd 3]
  have hup : E * (2 - d) ≤ 2 + d := by
    have h := Real.le_log_one_add_of_nonneg hE1
    rw [show 1 + (E - 1) = E by ring, hEd, Real.log_exp, ← hEd, div_le_iff₀ (by linarith)] at h
    linarith
  have hE0 : E * (1 - d) ≤ 1 := by
    have h1 := Real.add_one_le_exp (-d)
    rw [Real.exp_neg, ← hEd] at h1
    have := mul_le_mul_of_nonneg_left h1 hEp.le
    rw [mul_inv_cancel₀ hEp.ne'] at this
    linarith
  have hE2 : E * (1 - d ^ 2 / 2) ≤ 1 + d := by
    have h2 : (0 : ℝ) < 2 - d := by linarith
    have h3 : 0 ≤ 1 - d ^ 2 / 2 := by nlinarith
    have h4 := mul_le_mul_of_nonneg_right hup h3
    have h5 : (2 + d) * (1 - d ^ 2 / 2) ≤ (1 + d) * (2 - d) := by nlinarith [pow_nonneg hd 3]
    nlinarith
  have l2 : 0 ≤ d - (E - 1) * (1 - d / 2) := by nlinarith
  have l1 : 0 ≤ 1 + d - E * (1 - d ^ 2 / 2) := by linarith
  have l0 : 0 ≤ d * (1 - E * (1 - d)) := mul_nonneg hd (by linarith)
  have u2 : d - (E - 1) * (1 - d / 2) ≤ d ^ 3 * ((1 + d) / 12) := by
    have := mul_le_mul_of_nonneg_right hE (show 0 ≤ 1 - d / 2 by linarith)
    nlinarith
  have u1 : 1 + d - E * (1 - d ^ 2 / 2) ≤ d ^ 3 * (1 / 3 + d / 4 + d ^ 2 / 12) := by
    have := mul_le_mul_of_nonneg_right hE (show 0 ≤ 1 - d ^ 2 / 2 by nlinarith)
    nlinarith
  have u0 : d * (1 - E * (1 - d)) ≤ d ^ 3 * (1 / 2 + d / 3 + d ^ 2 / 6) := by
    have := mul_le_mul_of_nonneg_left (mul_le_mul_of_nonneg_right hE (show 0 ≤ 1 - d by linarith)) hd
    nlinarith
  unfold num
  rw [← hEd]
  constructor
  · have := mul_nonneg l2 (sq_nonneg g)
    have := mul_nonneg l1 hg
    linarith
  · have := mul_le_mul_of_nonneg_right u2 (sq_nonneg g)
    have := mul_le_mul_of_nonneg_right u1 hg
    linarith

/-- Any step from an error of at most 0.1 reduces the error cubically. -/
private theorem halley_small {g d : ℝ} (hg : 0 ≤ g) (hd : 0 ≤ d) (hd1 : d ≤ 0.1) :
    0 ≤ num g d / den g d ∧ num g d / den g d ≤ 0.54 * d ^ 2 * d := by
  have hD := den_pos hg hd
  obtain ⟨n0, n1⟩ := num_bounds hg hd (by linarith)
  refine ⟨div_nonneg n0 hD.le, ?_⟩
  rw [div_le_iff₀ hD]
  have hden : (g + 1) ^ 2 ≤ den g d := by
    have h1 : 0 ≤ Real.exp d - 1 := by linarith [Real.add_one_le_exp d]
    have h2 := Real.exp_pos d
    have : 0 ≤ (g + 2) / 2 * (g * (Real.exp d - 1) + d * Real.exp d) := by positivity
    unfold den; linarith
  have hb : (1 + d) / 12 * g ^ 2 + (1 / 3 + d / 4 + d ^ 2 / 12) * g + (1 / 2 + d / 3 + d ^ 2 / 6) ≤ 0.54 * (g + 1) ^ 2 := by
    have a1 : (1 + d) / 12 ≤ 0.54 := by linarith
    have a2 : 1 / 3 + d / 4 + d ^ 2 / 12 ≤ 2 * 0.54 := by nlinarith
    have a3 : 1 / 2 + d / 3 + d ^ 2 / 6 ≤ 0.54 := by nlinarith
    have := mul_le_mul_of_nonneg_right a1 (sq_nonneg g)
    have := mul_le_mul_of_nonneg_right a2 hg
    nlinarith
  have h3 := mul_le_mul_of_nonneg_left (le_trans hb (mul_le_mul_of_nonneg_left hden (by norm_num))) (pow_nonneg hd 3)
  calc num g d ≤ _ := n1
    _ ≤ _ := h3
    _ = _ := by ring

/-- The first step. -/
private theorem halley_first {g d : ℝ} (hd : 0 ≤ d) (hd1 : d ≤ 0.63) (hg : d ^ 2 / 2 + d ^ 3 / 6 ≤ g) :
    0 ≤ num g d / den g d ∧ num g d / den g d ≤ 0.125 * d := by
  have hg0 : 0 ≤ g := by nlinarith [sq_nonneg d, pow_nonneg hd 3]
  have hD := den_pos hg0 hd
  obtain ⟨n0, n1⟩ := num_bounds hg0 hd hd1
  refine ⟨div_nonneg n0 hD.le, ?_⟩
  rw [div_le_iff₀ hD]
  have hE := exp_lb3 hd
  have hden : (g + 1) ^ 2 + (g + 2) / 2 * (g * (d + d ^ 2 / 2) + d * (1 + d + d ^ 2 / 2)) ≤ den g d := by
    have h1 : d + d ^ 2 / 2 ≤ Real.exp d - 1 := by nlinarith [pow_nonneg hd 3]
    have h2 : 1 + d + d ^ 2 / 2 ≤ Real.exp d := by linarith
    have h3 := mul_le_mul_of_nonneg_left h1 hg0
    have h4 := mul_le_mul_of_nonneg_left h2 hd
    have := mul_le_mul_of_nonneg_left (add_le_add h3 h4) (show 0 ≤ (g + 2) / 2 by linarith)
    unfold den; linarith
  have key : d ^ 2 * ((1 + d) / 12 * g ^ 2 + (1 / 3 + d / 4 + d ^ 2 / 12) * g + (1 / 2 + d / 3 + d ^ 2 / 6)) ≤
      0.125 * ((g + 1) ^ 2 + (g + 2) / 2 * (g * (d + d ^ 2 / 2) + d * (1 + d + d ^ 2 / 2))) := by
    obtain ⟨k, rfl⟩ : ∃ k, g = d ^ 2 / 2 + d ^ 3 / 6 + k := ⟨g - (d ^ 2 / 2 + d ^ 3 / 6), by ring⟩
    have hk : 0 ≤ k := by linarith
    have pw : ∀ n : ℕ, d ^ (n + 1) ≤ 0.63 ^ n * d := fun n => by
      rw [pow_succ]; exact mul_le_mul_of_nonneg_right (pow_le_pow_left₀ hd hd1 n) hd
    have p2 := pw 1; have p3 := pw 2; have p4 := pw 3; have p5 := pw 4; have p6 := pw 5; have p7 := pw 6
    have p8 := pw 7; have p9 := pw 8
    norm_num at p2 p3 p4 p5 p6 p7 p8 p9
    have q0 : 0 ≤ 1 / 8 + 1 / 8 * d - 1 / 4 * d ^ 2 - 13 / 96 * d ^ 3 - 5 / 24 * d ^ 4 - 31 / 288 * d ^ 5 -
        89 / 1152 * d ^ 6 - 1 / 24 * d ^ 7 - 53 / 3456 * d ^ 8 - 1 / 432 * d ^ 9 := by linarith
    have q1 : 0 ≤ 1 / 4 + 3 / 16 * d - 1 / 12 * d ^ 2 - 11 / 96 * d ^ 3 - 11 / 96 * d ^ 4 - 29 / 288 * d ^ 5 -
        1 / 36 * d ^ 6 := by linarith
    have q2 : 0 ≤ 1 / 8 + 1 / 16 * d - 5 / 96 * d ^ 2 - 1 / 12 * d ^ 3 := by linarith
    have r1 := mul_nonneg q1 hk
    have r2 := mul_nonneg q2 (mul_nonneg hk hk)
    have h := add_nonneg (add_nonneg q0 r1) r2
    rw [← sub_nonneg]
    refine le_of_le_of_eq h ?_
    ring
  have := mul_le_mul_of_nonneg_left (le_trans key (mul_le_mul_of_nonneg_left hden (by norm_num))) hd
  calc num g d ≤ _ := n1
    _ = d * (d ^ 2 * ((1 + d) / 12 * g ^ 2 + (1 / 3 + d / 4 + d ^ 2 / 12) * g + (1 / 2 + d / 3 + d ^ 2 / 6))) := by ring
    _ ≤ _ := this
    _ = _ := by ring

/-- The starting point `log1p x - log1p (log1p x)`: it is below the solution, not too far, and not too small. -/
private theorem start_facts {w : ℝ} (hw : 0 ≤ w) :
    let t := Real.log (1 + w * Real.exp w)
    let g := t - Real.log (1 + t)
    0 ≤ t ∧ 0 ≤ w - g ∧ w - g ≤ 0.63 ∧ (w - g) ^ 2 / 2 + (w - g) ^ 3 / 6 ≤ g := by
  intro t g
  have hx : 0 ≤ w * Real.exp w := mul_nonneg hw (Real.exp_pos w).le
  have ht : 0 ≤ t := Real.log_nonneg (by linarith)
  set q := w + Real.exp (-w) with hq
  have hq1 : 1 ≤ q := by linarith [Real.add_one_le_exp (-w)]
  have hqp : 0 < q := by linarith
  have hqe : 1 + w * Real.exp w = Real.exp w * q := by
    rw [hq, mul_add, ← Real.exp_add]; simp; ring
  have htq : t = w + Real.log q := by
    show Real.log (1 + w * Real.exp w) = _
    rw [hqe, Real.log_mul (Real.exp_pos w).ne' hqp.ne', Real.log_exp]
  have hd : w - g = Real.log (1 + t) - Real.log q := by show w - (t - Real.log (1 + t)) = _; rw [htq]; ring
  have hlq : 0 ≤ Real.log q := Real.log_nonneg hq1
  have h1t : 0 < 1 + t := by linarith
  have hew : 0 ≤ 1 - Real.exp (-w) := by
    have : Real.exp (-w) ≤ 1 := Real.exp_le_one_iff.mpr (by linarith)
    linarith
  have h1tq : 1 + t = q + (1 - Real.exp (-w)) + Real.log q := by rw [htq, hq]; ring
  have hd0 : 0 ≤ w - g := by
    rw [hd, sub_nonneg]
    exact Real.log_le_log hqp (by linarith)
  refine ⟨ht, hd0, ?_, ?_⟩
  · have hlqe := log_le_div_e hqp
    have hs : 1 - Real.exp (-w) ≤ q / 2 := by
      have hl3 : 1 ≤ Real.log 3 := by
        rw [Real.le_log_iff_exp_le (by norm_num)]; linarith [exp_one_facts.2]
      have h3 := Real.add_one_le_exp (Real.log 3 - w)
      rw [sub_eq_add_neg, Real.exp_add, Real.exp_log (by norm_num)] at h3
      rw [hq]; linarith
    rw [hd, ← Real.log_div h1t.ne' hqp.ne', Real.log_le_iff_le_exp (div_pos h1t hqp), div_le_iff₀ hqp, h1tq]
    have he : (1.868 : ℝ) ≤ Real.exp 0.63 := by
      refine le_trans ?_ (exp_lb3 (by norm_num : (0 : ℝ) ≤ 0.63)); norm_num
    have := mul_le_mul_of_nonneg_right he hqp.le
    norm_num at hlqe this ⊢
    linarith
  · -- `g = e^l - 1 - l` with `l = log (1 + t) ≥ w - g`
    set l := Real.log (1 + t) with hl
    have hle : w - g ≤ l := by rw [hd]; linarith
    have hl0 : 0 ≤ l := le_trans hd0 hle
    have hel := exp_lb3 hl0
    have hg : g = Real.exp l - 1 - l := by
      show t - Real.log (1 + t) = _
      rw [hl, Real.exp_log h1t]; ring
    have m2 : (w - g) ^ 2 ≤ l ^ 2 := pow_le_pow_left₀ hd0 hle 2
    have m3 : (w - g) ^ 3 ≤ l ^ 3 := pow_le_pow_left₀ hd0 hle 3
    rw [hg] at m2 m3 ⊢
    linarith

private theorem halleyStep_fin {w g : ℝ} (hg : 0 ≤ g) (hgw : g ≤ w) :
    halleyStep (fin (w * Real.exp w)) (fin g) = fin (halley (w * Real.exp w) g) := by
  have hne : Real.exp g * (g + 1) ^ 2 - 0.5 * (g + 2) * (g * Real.exp g - w * Real.exp w) ≠ 0 := by
    have := halley_denom g (w - g)
    rw [show g + (w - g) = w by ring] at this
    rw [this]
    exact (mul_pos (Real.exp_pos g) (den_pos hg (by linarith))).ne'
  simp only [halleyStep, exp_fin, fin_mul, fin_sub, one_eq, ofNat_eq, fin_add, fin_pow]
  rw [fin_div hne]
  simp only [fin_sub, halley]

private theorem small_branch {w : ℝ} (hw : 0 ≤ w) (hx : w * Real.exp w ≤ 100) :
    ∃ r, lambertwPvlib (fin (w * Real.exp w)) = fin r ∧ 0 ≤ r ∧ r ≤ w ∧ w - r ≤ 2e-11 * w := by
  obtain ⟨ht, d0, d1, hg⟩ := start_facts hw
  set t := Real.log (1 + w * Real.exp w) with htd
  set g0 := t - Real.log (1 + t) with hg0
  have g0p : 0 ≤ g0 := le_trans (by have := pow_nonneg d0 3; positivity) hg
  -- first step
  have er : ∀ g, 0 ≤ g → g ≤ w → w - halley (w * Real.exp w) g = num g (w - g) / den g (w - g) := by
    intro g h1 h2
    have := halley_error h1 (show 0 ≤ w - g by linarith)
    rwa [show g + (w - g) = w by ring] at this
  obtain ⟨a1, b1⟩ := halley_first d0 d1 hg
  rw [← er g0 g0p (by linarith)] at a1 b1
  set g1 := halley (w * Real.exp w) g0 with hg1
  have g1p : 0 ≤ g1 := by linarith
  have s1 : w - g1 ≤ 0.079 := by linarith
  obtain ⟨a2, b2⟩ := halley_small g1p a1 (by linarith)
  rw [← er g1 g1p (by linarith)] at a2 b2
  set g2 := halley (w * Real.exp w) g1 with hg2
  have k1 : 0.54 * (w - g1) ^ 2 ≤ 0.0034 := by nlinarith
  have r2 : w - g2 ≤ 0.0034 * (w - g1) := le_trans b2 (mul_le_mul_of_nonneg_right k1 a1)
  have g2p : 0 ≤ g2 := by linarith
  obtain ⟨a3, b3⟩ := halley_small g2p a2 (by linarith)
  rw [← er g2 g2p (by linarith)] at a3 b3
  set g3 := halley (w * Real.exp w) g2 with hg3
  have s2 : w - g2 ≤ 0.00027 := by linarith
  have k2 : 0.54 * (w - g2) ^ 2 ≤ 4e-8 := by nlinarith
  have r3 : w - g3 ≤ 4e-8 * (w - g2) := le_trans b3 (mul_le_mul_of_nonneg_right k2 a2)
  refine ⟨g3, ?_, by linarith, by linarith, ?_⟩
  · have hx0 : 0 ≤ w * Real.exp w := mul_nonneg hw (Real.exp_pos w).le
    have h1 : 0 < 1 + w * Real.exp w := by linarith
    have h2 : 0 < 1 + t := by linarith
    simp only [lambertwPvlib, ofNat_eq, fin_le, hx, if_true, log1p, one_eq, fin_add, log_fin h1, ← htd, log_fin h2, fin_sub,
      ← hg0, halleyStep_fin g0p (by linarith : g0 ≤ w), ← hg1, halleyStep_fin g1p (by linarith : g1 ≤ w), ← hg2,
      halleyStep_fin g2p (by linarith : g2 ≤ w), ← hg3]
  · have : w - g0 ≤ w := by linarith
    norm_num at r3 r2 b1 ⊢
    linarith

/-- **C70**: for every finite `x ≥ 0`, pvlib's Lambert W returns a number not above the true value `w`
(`w e^w = x`) and below it by at most `2·10⁻¹¹` of it. -/
theorem lambertwPvlib_accuracy {x w : ℝ} (hw : 0 ≤ w) (hx : w * Real.exp w = x) :
    ∃ r, lambertwPvlib (fin x) = fin r ∧ 0 ≤ r ∧ r ≤ w ∧ w - r ≤ 2e-11 * w := by
  subst hx
  by_cases h : w * Real.exp w ≤ 100
  · exact small_branch hw h
  · push Not at h
    have hwp : 0 < w := by
      rcases hw.lt_or_eq with h' | h'
      · exact h'
      · rw [← h'] at h; norm_num at h
    have hL : Real.log (w * Real.exp w) = w + Real.log w := by
      rw [Real.log_mul hwp.ne' (Real.exp_pos w).ne', Real.log_exp]; ring
    have h45 : (4.5 : ℝ) ≤ Real.log (w * Real.exp w) := by
      rw [Real.le_log_iff_exp_le (by linarith)]
      refine le_trans ?_ h.le
      have e9 : Real.exp 4.5 ^ 2 = Real.exp 1 ^ 9 := by
        rw [← Real.exp_nat_mul, ← Real.exp_nat_mul]; norm_num
      have : Real.exp 1 ^ 9 ≤ 2.7183 ^ 9 := pow_le_pow_left₀ (Real.exp_pos 1).le exp_one_facts.2.le 9
      have h2 : Real.exp 4.5 ^ 2 ≤ 100 ^ 2 := by rw [e9]; refine le_trans this ?_; norm_num
      exact le_of_sq_le_sq h2 (by norm_num)
    obtain ⟨r, hr, h1, h2⟩ := logLambertw_accuracy (L := w + Real.log w) (by rw [← hL]; exact h45) hwp rfl
    have hw1 : 1 ≤ w := by
      by_contra hc
      push Not at hc
      have := Real.exp_lt_exp.mpr hc
      have h3 := mul_lt_mul'' hc this hw (Real.exp_pos w).le
      linarith [exp_one_facts.2]
    refine ⟨r, ?_, ?_, h1, ?_⟩
    · have hp : 0 < w * Real.exp w := by linarith
      have hn : ¬ w * Real.exp w ≤ 100 := not_le.mpr h
      simp only [lambertwPvlib, ofNat_eq, fin_le, hn, if_false, log_fin hp, hL, hr]
    · norm_num at h2; linarith
    · norm_num at h2 ⊢; linarith

/-- **C70**: NaN and arguments below minus one give NaN, infinity gives a non-finite result. -/
theorem lambertwPvlib_invalid : lambertwPvlib nan = nan ∧ (∀ x : ℝ, x < -1 → lambertwPvlib (fin x) = nan) ∧
    lambertwPvlib pinf = nan := by
  refine ⟨by simp [lambertwPvlib, logLambertw, logLambertwStep, Fl.log], fun x hx => ?_, ?_⟩
  · have h1 : x ≤ 100 := by linarith
    have h2 : Fl.log (fin (1 + x)) = nan := by simp only [Fl.log]; rw [if_pos (by linarith)]
    simp only [lambertwPvlib, ofNat_eq, fin_le, h1, if_true, log1p, one_eq, fin_add, h2, nan_sub, halleyStep]
  · simp [lambertwPvlib, logLambertw, Fl.log, logLambertwStep]

/-- **C70**: hence the current computed with pvlib's own Lambert W is at least the exact solution of the single diode
equation and exceeds it by at most `2·10⁻¹¹` of the diode-path term `(a/Rs) w`. -/
theorem iFromV_accuracy {IL I0 Rs g a : ℝ} {Rsh : Fl} (h : Sane IL I0 Rs g a) (hg : Conductance Rsh g) (hR : 0 < Rs)
    (v : ℝ) : ∃ i i', lambertwIFromV lambertwPvlib (fin v) (fin IL) (fin I0) (fin Rs) Rsh (fin a) = fin i' ∧
      Diode IL I0 Rs g a i v ∧ i ≤ i' ∧ i' - i ≤ 2e-11 * ((IL + I0 - v * g) / (Rs * g + 1) - i) := by
  obtain ⟨W, hW⟩ := exists_isLambertW
  obtain ⟨i, hi, hd⟩ := iFromV_solves h hg hW v
  have ha := h.a
  have hI := h.I0
  have hk : 0 < Rs * g + 1 := by have := mul_nonneg hR.le h.g; linarith
  have hak : a * (Rs * g + 1) ≠ 0 := (mul_pos ha hk).ne'
  have hx : 0 ≤ Rs * I0 / (a * (Rs * g + 1)) * Real.exp ((Rs * (IL + I0) + v) / (a * (Rs * g + 1))) := by
    have := mul_pos hR hI
    have := mul_pos ha hk
    positivity
  obtain ⟨w, hw, hWw, he⟩ := hW _ hx
  obtain ⟨r, hr, r0, rw', hrw⟩ := lambertwPvlib_accuracy hw he
  have ei : i = (IL + I0 - v * g) / (Rs * g + 1) - (a / Rs) * w := by
    have : fin i = _ := hi.symm
    simp only [lambertwIFromV, one_eq, gsh_fin hg, zero_eq, fin_lt, hR, if_true, fin_mul, fin_add, fin_sub, fin_div hak,
        fin_div hk.ne', fin_div hR.ne', exp_fin, hWw, fin_inj] at this
    exact this
  have har : 0 < a / Rs := div_pos ha hR
  refine ⟨i, (IL + I0 - v * g) / (Rs * g + 1) - (a / Rs) * r, ?_, hd, ?_, ?_⟩
  · simp only [lambertwIFromV, one_eq, gsh_fin hg, zero_eq, fin_lt, hR, if_true, fin_mul, fin_add, fin_sub, fin_div hak,
        fin_div hk.ne', fin_div hR.ne', exp_fin, hr]
  · rw [ei]; have := mul_le_mul_of_nonneg_left rw' har.le; linarith
  · rw [ei]
    have := mul_le_mul_of_nonneg_left hrw har.le
    norm_num at this ⊢
    linarith

example : ∃ r, lambertwPvlib (fin (2 * Real.exp 2)) = fin r ∧ 0 ≤ r ∧ r ≤ 2 ∧ 2 - r ≤ 2e-11 * 2 :=
  lambertwPvlib_accuracy (by norm_num) rfl

end Pvlib.Props.LambertW
end
