import Verif.Model.IvUtils
import Mathlib.Algebra.Polynomial.Degree.Lemmas
import Mathlib.Tactic.IntervalCases

/-! # C140: the five-point numerical derivative of an IV curve

Claim: on any five distinct abscissae, in any order and spacing, the first derivative returned at the middle point
is the exact derivative of the polynomial of degree at most four through the points; the two points at each end
are NaN.  Finding: the second derivative returned by the same function is not a derivative at all. -/

noncomputable section
open scoped Classical
open Real
namespace Pvlib.Props.NumDiff
open Fl Pvlib.IvTools

/-- The two first and two last elements are NaN, for every length. -/
theorem ends_nan (n : ℕ) (x f : Series) (i : ℕ) (h : i < 2 ∨ n ≤ i + 2) : numdiff n x f i = (nan, nan) := by
  unfold numdiff; rw [if_pos h]

example := ends_nan 7 (fun _ => fin 1) (fun _ => fin 2) 5 (by norm_num)

private theorem weights (a b d e c0 c1 c2 c3 c4 : ℝ) (ha : a ≠ 0) (hb : b ≠ 0) (hd : d ≠ 0) (he : e ≠ 0)
    (hab : a - b ≠ 0) (had : a - d ≠ 0) (hae : a - e ≠ 0) (hbd : b - d ≠ 0) (hbe : b - e ≠ 0) (hde : d - e ≠ 0) :
    -((b * d * e) / ((a - b) * a * (a - d) * (a - e))) * (c0 + c1 * a + c2 * a ^ 2 + c3 * a ^ 3 + c4 * a ^ 4) +
    -((a * d * e) / ((b - a) * b * (b - d) * (b - e))) * (c0 + c1 * b + c2 * b ^ 2 + c3 * b ^ 3 + c4 * b ^ 4) +
    -((a * b * d + a * b * e + a * d * e + b * d * e) / ((-a) * (-b) * (-d) * (-e))) * c0 +
    -((a * b * e) / ((d - a) * (d - b) * d * (d - e))) * (c0 + c1 * d + c2 * d ^ 2 + c3 * d ^ 3 + c4 * d ^ 4) +
    -((a * b * d) / ((e - a) * (e - b) * e * (e - d))) * (c0 + c1 * e + c2 * e ^ 2 + c3 * e ^ 3 + c4 * e ^ 4) = c1 := by
  have h1 : b - a ≠ 0 := by intro h; apply hab; linarith
  have h2 : d - a ≠ 0 := by intro h; apply had; linarith
  have h3 : e - a ≠ 0 := by intro h; apply hae; linarith
  have h4 : d - b ≠ 0 := by intro h; apply hbd; linarith
  have h5 : e - b ≠ 0 := by intro h; apply hbe; linarith
  have h6 : e - d ≠ 0 := by intro h; apply hde; linarith
  rw [show b - a = -(a - b) by ring, show d - a = -(a - d) by ring, show e - a = -(a - e) by ring,
    show d - b = -(b - d) by ring, show e - b = -(b - e) by ring, show e - d = -(d - e) by ring]
  field_simp
  ring


private theorem taylor4 (P : Polynomial ℝ) (hP : P.natDegree ≤ 4) (c : ℝ) :
    ∃ c0 c1 c2 c3 c4 : ℝ, (∀ t, P.eval t = c0 + c1 * (t - c) + c2 * (t - c) ^ 2 + c3 * (t - c) ^ 3 + c4 * (t - c) ^ 4) ∧
      P.derivative.eval c = c1 := by
  set Q := P.comp (Polynomial.X + Polynomial.C c) with hQ
  have hdeg : Q.natDegree < 5 := by
    have h := Polynomial.natDegree_comp_le (p := P) (q := Polynomial.X + Polynomial.C c)
    rw [Polynomial.natDegree_X_add_C, mul_one] at h
    rw [hQ]; omega
  have hev : ∀ t, Q.eval t = P.eval (t + c) := by intro t; simp [hQ]
  refine ⟨Q.coeff 0, Q.coeff 1, Q.coeff 2, Q.coeff 3, Q.coeff 4, ?_, ?_⟩
  · intro t
    have h := Polynomial.eval_eq_sum_range' hdeg (t - c)
    rw [hev] at h
    simp only [sub_add_cancel, Finset.sum_range_succ, Finset.sum_range_zero] at h
    rw [h]; ring
  · have h : Q.derivative.eval 0 = P.derivative.eval c := by
      simp [hQ, Polynomial.derivative_comp]
    rw [← h]
    have := Polynomial.coeff_zero_eq_eval_zero Q.derivative
    rw [← this, Polynomial.coeff_derivative]
    norm_num

/-- **C140.**  At every interior index, for every five distinct abscissae (any order, any spacing) and every
polynomial of degree at most four, the first derivative returned is the derivative of the polynomial there. -/
theorem first_derivative_exact (n : ℕ) (x : ℕ → ℝ) (P : Polynomial ℝ) (hP : P.natDegree ≤ 4) (i : ℕ) (h2 : 2 ≤ i)
    (hn : i + 2 < n) (hx : ∀ j k, i - 2 ≤ j → j ≤ i + 2 → i - 2 ≤ k → k ≤ i + 2 → x j = x k → j = k) :
    (numdiff n (fun k => fin (x k)) (fun k => fin (P.eval (x k))) i).1 = fin (P.derivative.eval (x i)) := by
  obtain ⟨c0, c1, c2, c3, c4, hev, hd⟩ := taylor4 P hP (x i)
  obtain ⟨m, rfl⟩ : ∃ m, i = m + 2 := ⟨i - 2, by omega⟩
  unfold numdiff
  rw [if_neg (by omega)]
  have hne : ∀ j k, j ≤ 4 → k ≤ 4 → j ≠ k → x (m + j) - x (m + k) ≠ 0 := by
    intro j k hj hk hjk h
    have := hx (m + j) (m + k) (by omega) (by omega) (by omega) (by omega) (by linarith)
    omega
  have e0 : ∀ j : ℕ, m + 2 - 2 + j = m + j := by intro j; omega
  simp only [e0, List.ofFn_succ, List.ofFn_zero]
  simp [nd_u1, nd_left, Fin.succ, Fl.sum, hev]
  have k01 := hne 0 1 (by norm_num) (by norm_num) (by norm_num)
  have k02 := hne 0 2 (by norm_num) (by norm_num) (by norm_num)
  have k03 := hne 0 3 (by norm_num) (by norm_num) (by norm_num)
  have k04 := hne 0 4 (by norm_num) (by norm_num) (by norm_num)
  have k10 := hne 1 0 (by norm_num) (by norm_num) (by norm_num)
  have k12 := hne 1 2 (by norm_num) (by norm_num) (by norm_num)
  have k13 := hne 1 3 (by norm_num) (by norm_num) (by norm_num)
  have k14 := hne 1 4 (by norm_num) (by norm_num) (by norm_num)
  have k20 := hne 2 0 (by norm_num) (by norm_num) (by norm_num)
  have k21 := hne 2 1 (by norm_num) (by norm_num) (by norm_num)
  have k23 := hne 2 3 (by norm_num) (by norm_num) (by norm_num)
  have k24 := hne 2 4 (by norm_num) (by norm_num) (by norm_num)
  have k30 := hne 3 0 (by norm_num) (by norm_num) (by norm_num)
  have k31 := hne 3 1 (by norm_num) (by norm_num) (by norm_num)
  have k32 := hne 3 2 (by norm_num) (by norm_num) (by norm_num)
  have k34 := hne 3 4 (by norm_num) (by norm_num) (by norm_num)
  have k40 := hne 4 0 (by norm_num) (by norm_num) (by norm_num)
  have k41 := hne 4 1 (by norm_num) (by norm_num) (by norm_num)
  have k42 := hne 4 2 (by norm_num) (by norm_num) (by norm_num)
  have k43 := hne 4 3 (by norm_num) (by norm_num) (by norm_num)
  simp only [Nat.add_zero] at k01 k02 k03 k04 k10 k12 k13 k14 k20 k21 k23 k24 k30 k31 k32 k34 k40 k41 k42 k43
  rw [hd]
  clear hd hev hne hx
  generalize x m = p0 at *
  generalize x (m + 1) = p1 at *
  generalize x (m + 2) = p2 at *
  generalize x (m + 3) = p3 at *
  generalize x (m + 4) = p4 at *
  rw [fin_div (by simp [*]), fin_div (by simp [*]), fin_div (by simp [*]), fin_div (by simp [*]),
    fin_div (by simp [*])]
  simp only [neg_fin, fin_mul, fin_add]
  rw [fin_inj]
  refine Eq.trans ?_ (weights (p0 - p2) (p1 - p2) (p3 - p2) (p4 - p2) c0 c1 c2 c3 c4 k02 k12 k32 k42
    (by simpa using k01) (by simpa using k03) (by simpa using k04) (by simpa using k13) (by simpa using k14)
    (by simpa using k34))
  simp only [sub_sub_sub_cancel_right, neg_sub, zero_add]

/-- The hypotheses of `first_derivative_exact` are met by five unevenly spaced points and a quartic; the result is
the exact slope `4·1³ = 4` at abscissa 1. -/
example : (numdiff 5 (fun k => fin (![-2, 0, 1, 2.5, 7] (Fin.ofNat 5 k)))
    (fun k => fin ((Polynomial.X ^ 4 : Polynomial ℝ).eval (![-2, 0, 1, 2.5, 7] (Fin.ofNat 5 k)))) 2).1 = fin 4 := by
  rw [first_derivative_exact 5 (fun k => ![-2, 0, 1, 2.5, 7] (Fin.ofNat 5 k)) (Polynomial.X ^ 4) (by simp) 2
    (le_refl _) (by norm_num)]
  · simp [Fin.ofNat]; norm_num
  · intro j k _ hj _ hk h
    interval_cases j <;> interval_cases k <;> simp [Fin.ofNat] at h ⊢ <;> norm_num at h

/-- **Finding.**  The second derivative returned at an interior point is
`2 Σ u2_j f_j`: the weights are not divided by the node products, so for equally spaced points (spacing `h`) the
result is `-2h² (f₋₂ + 4 f₋₁ + 4 f₀ + 4 f₁ + 2 f₂)`, an average of the values, not a difference of them. -/
theorem second_derivative_equal_spacing (n : ℕ) (x0 h : ℝ) (f : ℕ → ℝ) (i : ℕ) (h2 : 2 ≤ i) (hn : i + 2 < n) :
    (numdiff n (fun k => fin (x0 + k * h)) (fun k => fin (f k)) i).2 =
      fin (-2 * h ^ 2 * (f (i - 2) + 4 * f (i - 1) + 4 * f i + 4 * f (i + 1) + 2 * f (i + 2))) := by
  obtain ⟨m, rfl⟩ : ∃ m, i = m + 2 := ⟨i - 2, by omega⟩
  unfold numdiff
  rw [if_neg (by omega)]
  have e0 : ∀ j : ℕ, m + 2 - 2 + j = m + j := by intro j; omega
  have e1 : m + 2 - 1 = m + 1 := by omega
  simp only [e0, e1, List.ofFn_succ, List.ofFn_zero]
  simp [nd_u2, Fin.succ, Fl.sum]
  ring

example := second_derivative_equal_spacing 7 0 0.5 (fun k => k ^ 2) 3 (by norm_num) (by norm_num)

/-- In particular the "second derivative" of a constant function is not zero: for the constant 1 at unit spacing it
is -30, at every interior point. -/
theorem second_derivative_of_constant (n : ℕ) (x0 : ℝ) (i : ℕ) (h2 : 2 ≤ i) (hn : i + 2 < n) :
    (numdiff n (fun k => fin (x0 + k * 1)) (fun _ => fin 1) i).2 = fin (-30) := by
  rw [second_derivative_equal_spacing n x0 1 (fun _ => 1) i h2 hn]
  norm_num

example := second_derivative_of_constant 7 0 3 (by norm_num) (by norm_num)

end Pvlib.Props.NumDiff
