import Verif.Model.SpectralResponse
import Mathlib.Analysis.Calculus.ContDiff.Basic
import Mathlib.Analysis.Calculus.ContDiff.Deriv
import Mathlib.Analysis.Calculus.ContDiff.Operations
import Mathlib.Analysis.Calculus.Deriv.Pow
import Mathlib.Analysis.Calculus.Deriv.Add
import Mathlib.Analysis.Calculus.Deriv.Mul
import Mathlib.Tactic.LinearCombination

/-! # Property C206: the example spectral response -/

noncomputable section
open scoped Classical
namespace Pvlib.Props.SpectralResponse
open Fl Pvlib.Spectrum

/-- On the interval the function is a polynomial of degree at most 3. -/
def CubicOn (s : ℝ → ℝ) (a b : ℝ) : Prop := ∃ c0 c1 c2 c3 : ℝ, ∀ x ∈ Set.Icc a b, s x = c0 + c1 * (x - a) + c2 * (x - a) ^ 2 + c3 * (x - a) ^ 3

/-- What `scipy.interpolate.make_interp_spline(x, y, k=3)` computes: a twice continuously differentiable function through the data, a cubic
between consecutive data points, with not-a-knot ends: one cubic on the first two intervals, and one on the last two. -/
structure IsSpline (s : ℝ → ℝ) : Prop where
  smooth : ContDiff ℝ 2 s
  through : ∀ p ∈ srData, s p.1 = p.2
  cubic : CubicOn s 290 400 ∧ CubicOn s 400 500 ∧ CubicOn s 500 650 ∧ CubicOn s 650 800 ∧ CubicOn s 800 900 ∧ CubicOn s 900 950 ∧ CubicOn s 950 1000 ∧ CubicOn s 1000 1050 ∧ CubicOn s 1050 1100 ∧ CubicOn s 1100 1190

private theorem deriv_eqOn {f g : ℝ → ℝ} {a b : ℝ} (hab : a < b) (hf : ContDiff ℝ 1 f) (hg : ContDiff ℝ 1 g)
    (h : ∀ x ∈ Set.Icc a b, f x = g x) : ∀ x ∈ Set.Icc a b, deriv f x = deriv g x := by
  have ho : Set.EqOn (deriv f) (deriv g) (Set.Ioo a b) := by
    intro x hx
    apply Filter.EventuallyEq.deriv_eq
    filter_upwards [Ioo_mem_nhds hx.1 hx.2] with y hy
    exact h y ⟨hy.1.le, hy.2.le⟩
  have := ho.closure (hf.continuous_deriv le_rfl) (hg.continuous_deriv le_rfl)
  rw [closure_Ioo hab.ne] at this
  exact this

/-- The slope and the curvature of a cubic. -/
private theorem cubic_deriv (a c0 c1 c2 c3 : ℝ) :
    deriv (fun x : ℝ => c0 + c1 * (x - a) + c2 * (x - a) ^ 2 + c3 * (x - a) ^ 3) = fun x => c1 + 2 * c2 * (x - a) + 3 * c3 * (x - a) ^ 2 := by
  funext x
  have h : HasDerivAt (fun x : ℝ => x - a) 1 x := (hasDerivAt_id x).sub_const a
  have e := (((h.const_mul c1).const_add c0).fun_add ((h.fun_pow 2).const_mul c2)).fun_add ((h.fun_pow 3).const_mul c3)
  rw [HasDerivAt.deriv e]
  simp; ring

private theorem quad_deriv (a c1 c2 c3 : ℝ) :
    deriv (fun x : ℝ => c1 + 2 * c2 * (x - a) + 3 * c3 * (x - a) ^ 2) = fun x => 2 * c2 + 6 * c3 * (x - a) := by
  funext x
  have h : HasDerivAt (fun x : ℝ => x - a) 1 x := (hasDerivAt_id x).sub_const a
  have e := ((h.const_mul (2 * c2)).const_add c1).fun_add ((h.fun_pow 2).const_mul (3 * c3))
  rw [HasDerivAt.deriv e]
  simp; ring

/-- A smooth function that is a cubic on an interval has the cubic's slope and curvature there. -/
private theorem cubic_jets {s : ℝ → ℝ} (hs : ContDiff ℝ 2 s) {a b c0 c1 c2 c3 : ℝ} (hab : a < b)
    (h : ∀ x ∈ Set.Icc a b, s x = c0 + c1 * (x - a) + c2 * (x - a) ^ 2 + c3 * (x - a) ^ 3) {x : ℝ} (hx : x ∈ Set.Icc a b) :
    deriv s x = c1 + 2 * c2 * (x - a) + 3 * c3 * (x - a) ^ 2 ∧ deriv (deriv s) x = 2 * c2 + 6 * c3 * (x - a) := by
  have hs1 : ContDiff ℝ 1 s := hs.of_le (by norm_num)
  have hd : ContDiff ℝ 1 (deriv s) := by
    have := (contDiff_succ_iff_deriv (𝕜 := ℝ) (f := s) (n := 1)).1 (by simpa [one_add_one_eq_two] using hs)
    exact this.2.2
  have hp : ContDiff ℝ 1 (fun x : ℝ => c0 + c1 * (x - a) + c2 * (x - a) ^ 2 + c3 * (x - a) ^ 3) := by fun_prop
  have hq : ContDiff ℝ 1 (fun x : ℝ => c1 + 2 * c2 * (x - a) + 3 * c3 * (x - a) ^ 2) := by fun_prop
  have e1 := deriv_eqOn hab hs1 hp h
  rw [cubic_deriv] at e1
  have e2 := deriv_eqOn hab hd hq e1
  rw [quad_deriv] at e2
  exact ⟨e1 x hx, e2 x hx⟩

/-- Where two cubics meet, slope and curvature agree. -/
private theorem joint {s : ℝ → ℝ} (hs : ContDiff ℝ 2 s) {a b e c0 c1 c2 c3 d0 d1 d2 d3 : ℝ} (hab : a < b) (hbe : b < e)
    (h : ∀ x ∈ Set.Icc a b, s x = c0 + c1 * (x - a) + c2 * (x - a) ^ 2 + c3 * (x - a) ^ 3)
    (h' : ∀ x ∈ Set.Icc b e, s x = d0 + d1 * (x - b) + d2 * (x - b) ^ 2 + d3 * (x - b) ^ 3) :
    c1 + 2 * (b - a) * c2 + 3 * (b - a) ^ 2 * c3 - d1 = 0 ∧ c2 + 3 * (b - a) * c3 - d2 = 0 := by
  obtain ⟨p, q⟩ := cubic_jets hs hab h (x := b) ⟨hab.le, le_rfl⟩
  obtain ⟨p', q'⟩ := cubic_jets hs hbe h' (x := b) ⟨le_rfl, hbe.le⟩
  rw [p] at p'
  rw [q] at q'
  simp only [sub_self] at p' q'
  constructor
  · linear_combination p'
  · linear_combination q' / 2

/-! ### The pieces -/

private theorem piece0 {x : ℝ} (h : x ≤ 350) : srSpline x = 0 + 774893461 / 114665925000 * (x - 290) + -(629649059 / 13759911000000) * (x - 290) ^ 2 + 18642577 / 137599110000000 * (x - 290) ^ 3 := by
  simp [srSpline, srPieces, List.find?, Cubic.eval, h]

private theorem piece1 {x : ℝ} (h0 : 350 < x) (h : x ≤ 400) : srSpline x = 27 / 100 + 62605519 / 22933185000 * (x - 350) + -(294082673 / 13759911000000) * (x - 350) ^ 2 + 18642577 / 137599110000000 * (x - 350) ^ 3 := by
  have n0 : ¬ x ≤ 350 := by linarith
  simp [srSpline, srPieces, List.find?, Cubic.eval, h, n0]

private theorem piece2 {x : ℝ} (h0 : 400 < x) (h : x ≤ 500) : srSpline x = 37 / 100 + 442739537 / 275198220000 * (x - 400) + -(7222009 / 6879955500000) * (x - 400) ^ 2 + -(1054171 / 2751982200000000) * (x - 400) ^ 3 := by
  have n0 : ¬ x ≤ 350 := by linarith
  have n1 : ¬ x ≤ 400 := by linarith
  simp [srSpline, srPieces, List.find?, Cubic.eval, h, n0, n1]

private theorem piece3 {x : ℝ} (h0 : 500 < x) (h : x ≤ 650) : srSpline x = 13 / 25 + 5302791 / 3822197500 * (x - 500) + -(32050549 / 27519822000000) * (x - 500) ^ 2 + 3302063 / 1375991100000000 * (x - 500) ^ 3 := by
  have n0 : ¬ x ≤ 350 := by linarith
  have n1 : ¬ x ≤ 400 := by linarith
  have n2 : ¬ x ≤ 500 := by linarith
  simp [srSpline, srPieces, List.find?, Cubic.eval, h, n0, n1, n2]

private theorem piece4 {x : ℝ} (h0 : 650 < x) (h : x ≤ 800) : srSpline x = 71 / 100 + 20013767 / 16678680000 * (x - 650) + -(1165991 / 13759911000000) * (x - 650) ^ 2 + -(9891911 / 4127973300000000) * (x - 650) ^ 3 := by
  have n0 : ¬ x ≤ 350 := by linarith
  have n1 : ¬ x ≤ 400 := by linarith
  have n2 : ¬ x ≤ 500 := by linarith
  have n3 : ¬ x ≤ 650 := by linarith
  simp [srSpline, srPieces, List.find?, Cubic.eval, h, n0, n1, n2, n3]

private theorem piece5 {x : ℝ} (h0 : 800 < x) (h : x ≤ 900) : srSpline x = 22 / 25 + 9290587 / 9173274000 * (x - 800) + -(6401543 / 5503964400000) * (x - 800) ^ 2 + 968503 / 2751982200000000 * (x - 800) ^ 3 := by
  have n0 : ¬ x ≤ 350 := by linarith
  have n1 : ¬ x ≤ 400 := by linarith
  have n2 : ¬ x ≤ 500 := by linarith
  have n3 : ¬ x ≤ 650 := by linarith
  have n4 : ¬ x ≤ 800 := by linarith
  simp [srSpline, srPieces, List.find?, Cubic.eval, h, n0, n1, n2, n3, n4]

private theorem piece6 {x : ℝ} (h0 : 900 < x) (h : x ≤ 950) : srSpline x = 97 / 100 + 217607689 / 275198220000 * (x - 900) + -(14551103 / 13759911000000) * (x - 900) ^ 2 + -(18968827 / 343997775000000) * (x - 900) ^ 3 := by
  have n0 : ¬ x ≤ 350 := by linarith
  have n1 : ¬ x ≤ 400 := by linarith
  have n2 : ¬ x ≤ 500 := by linarith
  have n3 : ¬ x ≤ 650 := by linarith
  have n4 : ¬ x ≤ 800 := by linarith
  have n5 : ¬ x ≤ 900 := by linarith
  simp [srSpline, srPieces, List.find?, Cubic.eval, h, n0, n1, n2, n3, n4, n5]

private theorem piece7 {x : ℝ} (h0 : 950 < x) (h : x ≤ 1000) : srSpline x = 1 + 8299169 / 30577580000 * (x - 950) + -(25672813 / 2751982200000) * (x - 950) ^ 2 + -(82901491 / 171998887500000) * (x - 950) ^ 3 := by
  have n0 : ¬ x ≤ 350 := by linarith
  have n1 : ¬ x ≤ 400 := by linarith
  have n2 : ¬ x ≤ 500 := by linarith
  have n3 : ¬ x ≤ 650 := by linarith
  have n4 : ¬ x ≤ 800 := by linarith
  have n5 : ¬ x ≤ 900 := by linarith
  have n6 : ¬ x ≤ 950 := by linarith
  simp [srSpline, srPieces, List.find?, Cubic.eval, h, n0, n1, n2, n3, n4, n5, n6]

private theorem piece8 {x : ℝ} (h0 : 1000 < x) (h : x ≤ 1050) : srSpline x = 93 / 100 + -(1176853501 / 275198220000) * (x - 1000) + -(1123181957 / 13759911000000) * (x - 1000) ^ 2 + 62274653 / 114665925000000 * (x - 1000) ^ 3 := by
  have n0 : ¬ x ≤ 350 := by linarith
  have n1 : ¬ x ≤ 400 := by linarith
  have n2 : ¬ x ≤ 500 := by linarith
  have n3 : ¬ x ≤ 650 := by linarith
  have n4 : ¬ x ≤ 800 := by linarith
  have n5 : ¬ x ≤ 900 := by linarith
  have n6 : ¬ x ≤ 950 := by linarith
  have n7 : ¬ x ≤ 1000 := by linarith
  simp [srSpline, srPieces, List.find?, Cubic.eval, h, n0, n1, n2, n3, n4, n5, n6, n7]

private theorem piece9 {x : ℝ} (h0 : 1050 < x) (h : x ≤ 1100) : srSpline x = 29 / 50 + -(2302273661 / 275198220000) * (x - 1050) + -(203473 / 1250901000000) * (x - 1050) ^ 2 + 2913533 / 7478212500000 * (x - 1050) ^ 3 := by
  have n0 : ¬ x ≤ 350 := by linarith
  have n1 : ¬ x ≤ 400 := by linarith
  have n2 : ¬ x ≤ 500 := by linarith
  have n3 : ¬ x ≤ 650 := by linarith
  have n4 : ¬ x ≤ 800 := by linarith
  have n5 : ¬ x ≤ 900 := by linarith
  have n6 : ¬ x ≤ 950 := by linarith
  have n7 : ¬ x ≤ 1000 := by linarith
  have n8 : ¬ x ≤ 1050 := by linarith
  simp [srSpline, srPieces, List.find?, Cubic.eval, h, n0, n1, n2, n3, n4, n5, n6, n7, n8]

private theorem piece10 {x : ℝ} (h0 : 1100 < x) (h : x ≤ 1150) : srSpline x = 21 / 100 + -(500871653 / 91732740000) * (x - 1100) + 160379381 / 2751982200000 * (x - 1100) ^ 2 + -(143933 / 550396440000) * (x - 1100) ^ 3 := by
  have n0 : ¬ x ≤ 350 := by linarith
  have n1 : ¬ x ≤ 400 := by linarith
  have n2 : ¬ x ≤ 500 := by linarith
  have n3 : ¬ x ≤ 650 := by linarith
  have n4 : ¬ x ≤ 800 := by linarith
  have n5 : ¬ x ≤ 900 := by linarith
  have n6 : ¬ x ≤ 950 := by linarith
  have n7 : ¬ x ≤ 1000 := by linarith
  have n8 : ¬ x ≤ 1050 := by linarith
  have n9 : ¬ x ≤ 1100 := by linarith
  simp [srSpline, srPieces, List.find?, Cubic.eval, h, n0, n1, n2, n3, n4, n5, n6, n7, n8, n9]

private theorem piece11 {x : ℝ} (h0 : 1150 < x) (h : x ≤ 1190) : srSpline x = 1 / 20 + -(438569899 / 275198220000) * (x - 1150) + 52429631 / 2751982200000 * (x - 1150) ^ 2 + -(143933 / 550396440000) * (x - 1150) ^ 3 := by
  have n0 : ¬ x ≤ 350 := by linarith
  have n1 : ¬ x ≤ 400 := by linarith
  have n2 : ¬ x ≤ 500 := by linarith
  have n3 : ¬ x ≤ 650 := by linarith
  have n4 : ¬ x ≤ 800 := by linarith
  have n5 : ¬ x ≤ 900 := by linarith
  have n6 : ¬ x ≤ 950 := by linarith
  have n7 : ¬ x ≤ 1000 := by linarith
  have n8 : ¬ x ≤ 1050 := by linarith
  have n9 : ¬ x ≤ 1100 := by linarith
  have n10 : ¬ x ≤ 1150 := by linarith
  simp [srSpline, srPieces, List.find?, Cubic.eval, h, n0, n1, n2, n3, n4, n5, n6, n7, n8, n9, n10]

set_option maxHeartbeats 8000000 in
/-- **C206a.** The response between the first and the last wavelength of the table is the interpolating cubic spline: every function that is a
not-a-knot cubic spline through the data has the values of the model. -/
theorem spline_unique {s : ℝ → ℝ} (hs : IsSpline s) {x : ℝ} (h0 : 290 ≤ x) (h1 : x ≤ 1190) : srSpline x = s x := by
  obtain ⟨hsm, ht, hc⟩ := hs
  simp only [srData, List.forall_mem_cons, List.not_mem_nil, false_imp_iff, implies_true, and_true] at ht
  obtain ⟨t290, t350, t400, t500, t650, t800, t900, t950, t1000, t1050, t1100, t1150, t1190⟩ := ht
  obtain ⟨⟨a0, b0, c0, d0, p0⟩, ⟨a1, b1, c1, d1, p1⟩, ⟨a2, b2, c2, d2, p2⟩, ⟨a3, b3, c3, d3, p3⟩, ⟨a4, b4, c4, d4, p4⟩, ⟨a5, b5, c5, d5, p5⟩, ⟨a6, b6, c6, d6, p6⟩, ⟨a7, b7, c7, d7, p7⟩, ⟨a8, b8, c8, d8, p8⟩, ⟨a9, b9, c9, d9, p9⟩⟩ := hc
  have z0 : a0 = 0 := by have := p0 290 ⟨le_rfl, by norm_num⟩; rw [t290] at this; norm_num at this ⊢; linarith
  have z1 : a1 = 37 / 100 := by have := p1 400 ⟨le_rfl, by norm_num⟩; rw [t400] at this; norm_num at this ⊢; linarith
  have z2 : a2 = 13 / 25 := by have := p2 500 ⟨le_rfl, by norm_num⟩; rw [t500] at this; norm_num at this ⊢; linarith
  have z3 : a3 = 71 / 100 := by have := p3 650 ⟨le_rfl, by norm_num⟩; rw [t650] at this; norm_num at this ⊢; linarith
  have z4 : a4 = 22 / 25 := by have := p4 800 ⟨le_rfl, by norm_num⟩; rw [t800] at this; norm_num at this ⊢; linarith
  have z5 : a5 = 97 / 100 := by have := p5 900 ⟨le_rfl, by norm_num⟩; rw [t900] at this; norm_num at this ⊢; linarith
  have z6 : a6 = 1 := by have := p6 950 ⟨le_rfl, by norm_num⟩; rw [t950] at this; norm_num at this ⊢; linarith
  have z7 : a7 = 93 / 100 := by have := p7 1000 ⟨le_rfl, by norm_num⟩; rw [t1000] at this; norm_num at this ⊢; linarith
  have z8 : a8 = 29 / 50 := by have := p8 1050 ⟨le_rfl, by norm_num⟩; rw [t1050] at this; norm_num at this ⊢; linarith
  have z9 : a9 = 21 / 100 := by have := p9 1100 ⟨le_rfl, by norm_num⟩; rw [t1100] at this; norm_num at this ⊢; linarith
  have e0 : 110 * b0 + 12100 * c0 + 1331000 * d0 = 37 / 100 := by
    have := p0 400 ⟨by norm_num, le_rfl⟩; rw [t400, z0] at this; norm_num at this ⊢; linarith
  have e1 : 100 * b1 + 10000 * c1 + 1000000 * d1 = 3 / 20 := by
    have := p1 500 ⟨by norm_num, le_rfl⟩; rw [t500, z1] at this; norm_num at this ⊢; linarith
  have e2 : 150 * b2 + 22500 * c2 + 3375000 * d2 = 19 / 100 := by
    have := p2 650 ⟨by norm_num, le_rfl⟩; rw [t650, z2] at this; norm_num at this ⊢; linarith
  have e3 : 150 * b3 + 22500 * c3 + 3375000 * d3 = 17 / 100 := by
    have := p3 800 ⟨by norm_num, le_rfl⟩; rw [t800, z3] at this; norm_num at this ⊢; linarith
  have e4 : 100 * b4 + 10000 * c4 + 1000000 * d4 = 9 / 100 := by
    have := p4 900 ⟨by norm_num, le_rfl⟩; rw [t900, z4] at this; norm_num at this ⊢; linarith
  have e5 : 50 * b5 + 2500 * c5 + 125000 * d5 = 3 / 100 := by
    have := p5 950 ⟨by norm_num, le_rfl⟩; rw [t950, z5] at this; norm_num at this ⊢; linarith
  have e6 : 50 * b6 + 2500 * c6 + 125000 * d6 = -(7 / 100) := by
    have := p6 1000 ⟨by norm_num, le_rfl⟩; rw [t1000, z6] at this; norm_num at this ⊢; linarith
  have e7 : 50 * b7 + 2500 * c7 + 125000 * d7 = -(7 / 20) := by
    have := p7 1050 ⟨by norm_num, le_rfl⟩; rw [t1050, z7] at this; norm_num at this ⊢; linarith
  have e8 : 50 * b8 + 2500 * c8 + 125000 * d8 = -(37 / 100) := by
    have := p8 1100 ⟨by norm_num, le_rfl⟩; rw [t1100, z8] at this; norm_num at this ⊢; linarith
  have e9 : 90 * b9 + 8100 * c9 + 729000 * d9 = -(21 / 100) := by
    have := p9 1190 ⟨by norm_num, le_rfl⟩; rw [t1190, z9] at this; norm_num at this ⊢; linarith
  have f0 : 60 * b0 + 3600 * c0 + 216000 * d0 = 27 / 100 := by
    have := p0 350 ⟨by norm_num, by norm_num⟩; rw [t350, z0] at this; norm_num at this ⊢; linarith
  have f9 : 50 * b9 + 2500 * c9 + 125000 * d9 = -(4 / 25) := by
    have := p9 1150 ⟨by norm_num, by norm_num⟩; rw [t1150, z9] at this; norm_num at this ⊢; linarith
  obtain ⟨s0, k0⟩ := joint hsm (by norm_num) (by norm_num) p0 p1
  obtain ⟨s1, k1⟩ := joint hsm (by norm_num) (by norm_num) p1 p2
  obtain ⟨s2, k2⟩ := joint hsm (by norm_num) (by norm_num) p2 p3
  obtain ⟨s3, k3⟩ := joint hsm (by norm_num) (by norm_num) p3 p4
  obtain ⟨s4, k4⟩ := joint hsm (by norm_num) (by norm_num) p4 p5
  obtain ⟨s5, k5⟩ := joint hsm (by norm_num) (by norm_num) p5 p6
  obtain ⟨s6, k6⟩ := joint hsm (by norm_num) (by norm_num) p6 p7
  obtain ⟨s7, k7⟩ := joint hsm (by norm_num) (by norm_num) p7 p8
  obtain ⟨s8, k8⟩ := joint hsm (by norm_num) (by norm_num) p8 p9
  norm_num only at s0 k0 s1 k1 s2 k2 s3 k3 s4 k4 s5 k5 s6 k6 s7 k7 s8 k8
  have r10 : b0 = 774893461 / 114665925000 := by linear_combination (-(33716472 / 1184881225)) * e0 + (11539209 / 2154329500) * e1 + (-(874863 / 1077164750)) * e2 + (247357 / 1077164750) * e3 + (-(244101 / 2154329500)) * e4 + (40029 / 538582375) * e5 + (-(429 / 21543295)) * e6 + (2871 / 538582375) * e7 + (-(33 / 23416625)) * e8 + (-(11 / 155111724)) * e9 + (79500509 / 1292597700) * f0 + (891 / 2154329500) * f9 + (1895146 / 4308659) * s0 + (112586540 / 4308659) * k0 + (-(2063479 / 21543295)) * s1 + (-(35658480 / 4308659)) * k1 + (112222 / 4308659) * s2 + (9412590 / 4308659) * k2 + (-(180961 / 21543295)) * s3 + (-(1991880 / 4308659)) * k3 + (12628 / 4308659) * s4 + (364540 / 4308659) * k4 + (-(16918 / 21543295)) * s5 + (-(97680 / 4308659)) * k5 + (4532 / 21543295) * s6 + (26180 / 4308659) * k6 + (-(242 / 4308659)) * s7 + (-(7040 / 4308659)) * k7 + (308 / 21543295) * s8 + (1980 / 4308659) * k8
  have r20 : c0 = -(629649059 / 13759911000000) := by linear_combination (7509457 / 11848812250) * e0 + (-(5944441 / 43086590000)) * e1 + (450687 / 21543295000) * e2 + (-(382279 / 64629885000)) * e3 + (125749 / 43086590000) * e4 + (-(20621 / 10771647500)) * e5 + (221 / 430865900) * e6 + (-(1479 / 10771647500)) * e7 + (17 / 468332500) * e8 + (17 / 9306703440) * e9 + (-(37734587 / 38777931000)) * f0 + (-(459 / 43086590000)) * f9 + (-(1464431 / 129259770)) * s0 + (-(8699869 / 12925977)) * k0 + (3189013 / 1292597700) * s1 + (918476 / 4308659) * k1 + (-(86717 / 129259770)) * s2 + (-(484891 / 8617318)) * k2 + (279667 / 1292597700) * s3 + (51306 / 4308659) * k3 + (-(4879 / 64629885)) * s4 + (-(28169 / 12925977)) * k4 + (13073 / 646298850) * s5 + (2516 / 4308659) * k5 + (-(1751 / 323149425)) * s6 + (-(2023 / 12925977)) * k6 + (187 / 129259770) * s7 + (544 / 12925977) * k7 + (-(119 / 323149425)) * s8 + (-(51 / 4308659)) * k8
  have r30 : d0 = 18642577 / 137599110000000 := by linear_combination (-(126003 / 47395249000)) * e0 + (349673 / 430865900000) * e1 + (-(26511 / 215432950000)) * e2 + (22487 / 646298850000) * e3 + (-(7397 / 430865900000)) * e4 + (1213 / 107716475000) * e5 + (-(13 / 4308659000)) * e6 + (87 / 107716475000) * e7 + (-(1 / 4683325000)) * e8 + (-(1 / 93067034400)) * e9 + (145933 / 38777931000) * f0 + (27 / 430865900000) * f9 + (86143 / 1292597700) * s0 + (511757 / 129259770) * k0 + (-(187589 / 12925977000)) * s1 + (-(27014 / 21543295)) * k1 + (5101 / 1292597700) * s2 + (28523 / 86173180) * k2 + (-(16451 / 12925977000)) * s3 + (-(1509 / 21543295)) * k3 + (287 / 646298850) * s4 + (1657 / 129259770) * k4 + (-(769 / 6462988500)) * s5 + (-(74 / 21543295)) * k5 + (103 / 3231494250) * s6 + (119 / 129259770) * k6 + (-(11 / 1292597700)) * s7 + (-(16 / 64629885)) * k7 + (7 / 3231494250) * s8 + (3 / 43086590) * k8
  have r11 : b1 = 442739537 / 275198220000 := by linear_combination r10 + 220 * r20 + 36300 * r30 - s0
  have r21 : c1 = -(7222009 / 6879955500000) := by linear_combination r20 + 330 * r30 - k0
  have r31 : d1 = -(1054171 / 2751982200000000) := by linear_combination (e1 - 100 * r11 - 10000 * r21) / 1000000
  have r12 : b2 = 5302791 / 3822197500 := by linear_combination r11 + 200 * r21 + 30000 * r31 - s1
  have r22 : c2 = -(32050549 / 27519822000000) := by linear_combination r21 + 300 * r31 - k1
  have r32 : d2 = 3302063 / 1375991100000000 := by linear_combination (e2 - 150 * r12 - 22500 * r22) / 3375000
  have r13 : b3 = 20013767 / 16678680000 := by linear_combination r12 + 300 * r22 + 67500 * r32 - s2
  have r23 : c3 = -(1165991 / 13759911000000) := by linear_combination r22 + 450 * r32 - k2
  have r33 : d3 = -(9891911 / 4127973300000000) := by linear_combination (e3 - 150 * r13 - 22500 * r23) / 3375000
  have r14 : b4 = 9290587 / 9173274000 := by linear_combination r13 + 300 * r23 + 67500 * r33 - s3
  have r24 : c4 = -(6401543 / 5503964400000) := by linear_combination r23 + 450 * r33 - k3
  have r34 : d4 = 968503 / 2751982200000000 := by linear_combination (e4 - 100 * r14 - 10000 * r24) / 1000000
  have r15 : b5 = 217607689 / 275198220000 := by linear_combination r14 + 200 * r24 + 30000 * r34 - s4
  have r25 : c5 = -(14551103 / 13759911000000) := by linear_combination r24 + 300 * r34 - k4
  have r35 : d5 = -(18968827 / 343997775000000) := by linear_combination (e5 - 50 * r15 - 2500 * r25) / 125000
  have r16 : b6 = 8299169 / 30577580000 := by linear_combination r15 + 100 * r25 + 7500 * r35 - s5
  have r26 : c6 = -(25672813 / 2751982200000) := by linear_combination r25 + 150 * r35 - k5
  have r36 : d6 = -(82901491 / 171998887500000) := by linear_combination (e6 - 50 * r16 - 2500 * r26) / 125000
  have r17 : b7 = -(1176853501 / 275198220000) := by linear_combination r16 + 100 * r26 + 7500 * r36 - s6
  have r27 : c7 = -(1123181957 / 13759911000000) := by linear_combination r26 + 150 * r36 - k6
  have r37 : d7 = 62274653 / 114665925000000 := by linear_combination (e7 - 50 * r17 - 2500 * r27) / 125000
  have r18 : b8 = -(2302273661 / 275198220000) := by linear_combination r17 + 100 * r27 + 7500 * r37 - s7
  have r28 : c8 = -(203473 / 1250901000000) := by linear_combination r27 + 150 * r37 - k7
  have r38 : d8 = 2913533 / 7478212500000 := by linear_combination (e8 - 50 * r18 - 2500 * r28) / 125000
  have r19 : b9 = -(500871653 / 91732740000) := by linear_combination r18 + 100 * r28 + 7500 * r38 - s8
  have r29 : c9 = 160379381 / 2751982200000 := by linear_combination r28 + 150 * r38 - k8
  have r39 : d9 = -(143933 / 550396440000) := by linear_combination (e9 - 90 * r19 - 8100 * r29) / 729000
  clear s0 k0 s1 k1 s2 k2 s3 k3 s4 k4 s5 k5 s6 k6 s7 k7 s8 k8 e0 e1 e2 e3 e4 e5 e6 e7 e8 e9
  by_cases hx : x ≤ 350
  · rw [piece0 hx, p0 x ⟨by linarith, by linarith⟩, z0, r10, r20, r30]
  have l0 : 350 < x := not_le.1 hx
  clear hx
  by_cases hx : x ≤ 400
  · rw [piece1 l0 hx, p0 x ⟨by linarith, by linarith⟩, z0, r10, r20, r30]; ring
  have l1 : 400 < x := not_le.1 hx
  clear hx
  by_cases hx : x ≤ 500
  · rw [piece2 l1 hx, p1 x ⟨by linarith, by linarith⟩, z1, r11, r21, r31]
  have l2 : 500 < x := not_le.1 hx
  clear hx
  by_cases hx : x ≤ 650
  · rw [piece3 l2 hx, p2 x ⟨by linarith, by linarith⟩, z2, r12, r22, r32]
  have l3 : 650 < x := not_le.1 hx
  clear hx
  by_cases hx : x ≤ 800
  · rw [piece4 l3 hx, p3 x ⟨by linarith, by linarith⟩, z3, r13, r23, r33]
  have l4 : 800 < x := not_le.1 hx
  clear hx
  by_cases hx : x ≤ 900
  · rw [piece5 l4 hx, p4 x ⟨by linarith, by linarith⟩, z4, r14, r24, r34]
  have l5 : 900 < x := not_le.1 hx
  clear hx
  by_cases hx : x ≤ 950
  · rw [piece6 l5 hx, p5 x ⟨by linarith, by linarith⟩, z5, r15, r25, r35]
  have l6 : 950 < x := not_le.1 hx
  clear hx
  by_cases hx : x ≤ 1000
  · rw [piece7 l6 hx, p6 x ⟨by linarith, by linarith⟩, z6, r16, r26, r36]
  have l7 : 1000 < x := not_le.1 hx
  clear hx
  by_cases hx : x ≤ 1050
  · rw [piece8 l7 hx, p7 x ⟨by linarith, by linarith⟩, z7, r17, r27, r37]
  have l8 : 1050 < x := not_le.1 hx
  clear hx
  by_cases hx : x ≤ 1100
  · rw [piece9 l8 hx, p8 x ⟨by linarith, by linarith⟩, z8, r18, r28, r38]
  have l9 : 1100 < x := not_le.1 hx
  clear hx
  by_cases hx : x ≤ 1150
  · rw [piece10 l9 hx, p9 x ⟨by linarith, by linarith⟩, z9, r19, r29, r39]
  have l10 : 1150 < x := not_le.1 hx
  clear hx
  have hx := h1
  rw [piece11 l10 hx, p9 x ⟨by linarith, by linarith⟩, z9, r19, r29, r39]; ring

/-! ### There is such a spline -/

private theorem pos_deriv (a : ℝ) (n : ℕ) (x : ℝ) : HasDerivAt (fun x : ℝ => (max (x - a) 0) ^ (n + 2)) ((n + 2) * (max (x - a) 0) ^ (n + 1)) x := by
  rcases lt_trichotomy x a with h | h | h
  · have e : (fun x : ℝ => (max (x - a) 0) ^ (n + 2)) =ᶠ[nhds x] fun _ => 0 := by
      filter_upwards [Iio_mem_nhds h] with y hy
      rw [max_eq_right (by linarith [Set.mem_Iio.1 hy])]; simp
    rw [max_eq_right (by linarith)]
    simpa using (hasDerivAt_const x (0 : ℝ)).congr_of_eventuallyEq e
  · subst h
    rw [hasDerivAt_iff_isLittleO]
    simp only [sub_self, max_self, ne_eq, Nat.add_eq_zero_iff, one_ne_zero, OfNat.ofNat_ne_zero, and_false, not_false_eq_true, zero_pow, mul_zero, smul_zero, sub_zero]
    have : (fun y : ℝ => (max (y - x) 0) ^ (n + 2)) =O[nhds x] fun y => (y - x) ^ (n + 2) := by
      apply Asymptotics.IsBigO.of_bound 1
      filter_upwards with y
      rw [one_mul, norm_pow, norm_pow]
      apply pow_le_pow_left₀ (norm_nonneg _)
      rw [Real.norm_eq_abs, Real.norm_eq_abs]
      rcases le_total (y - x) 0 with h | h
      · rw [max_eq_right h]; simp
      · rw [max_eq_left h]
    refine this.trans_isLittleO ?_
    have h2 : (fun y : ℝ => (y - x) ^ (n + 2)) =o[nhds x] fun y => (y - x) ^ 1 := by
      have hz : Filter.Tendsto (fun y : ℝ => y - x) (nhds x) (nhds 0) := by
        have : Continuous fun y : ℝ => y - x := by fun_prop
        simpa using this.tendsto x
      exact (Asymptotics.isLittleO_pow_pow (𝕜 := ℝ) (by omega : 1 < n + 2)).comp_tendsto hz
    simpa using h2
  · have e : (fun x : ℝ => (max (x - a) 0) ^ (n + 2)) =ᶠ[nhds x] fun x => (x - a) ^ (n + 2) := by
      filter_upwards [Ioi_mem_nhds h] with y hy
      rw [max_eq_left (by linarith [Set.mem_Ioi.1 hy])]
    rw [max_eq_left (by linarith)]
    have h1 : HasDerivAt (fun x : ℝ => x - a) 1 x := (hasDerivAt_id x).sub_const a
    refine ((h1.pow (n + 2)).congr_deriv ?_).congr_of_eventuallyEq e
    simp

private theorem pos_smooth (a : ℝ) : ContDiff ℝ 2 (fun x : ℝ => (max (x - a) 0) ^ 3) := by
  have h1 : ∀ x, HasDerivAt (fun x : ℝ => (max (x - a) 0) ^ 3) (3 * (max (x - a) 0) ^ 2) x := fun x =>
    (pos_deriv a 1 x).congr_deriv (by norm_num)
  have h2 : ∀ x, HasDerivAt (fun x : ℝ => 3 * (max (x - a) 0) ^ 2) (3 * (2 * (max (x - a) 0))) x := fun x =>
    ((pos_deriv a 0 x).congr_deriv (by norm_num)).const_mul 3
  have d1 : deriv (fun x : ℝ => (max (x - a) 0) ^ 3) = fun x => 3 * (max (x - a) 0) ^ 2 := funext fun x => (h1 x).deriv
  have d2 : deriv (fun x : ℝ => 3 * (max (x - a) 0) ^ 2) = fun x => 3 * (2 * (max (x - a) 0)) := funext fun x => (h2 x).deriv
  rw [← one_add_one_eq_two, contDiff_succ_iff_deriv]
  refine ⟨fun x => (h1 x).differentiableAt, by simp, ?_⟩
  rw [d1, contDiff_one_iff_deriv, d2]
  exact ⟨fun x => (h2 x).differentiableAt, by fun_prop⟩

/-- The spline as a sum of truncated powers. -/
def spline (x : ℝ) : ℝ := 0 + 774893461 / 114665925000 * (x - 290) + -(629649059 / 13759911000000) * (x - 290) ^ 2 + 18642577 / 137599110000000 * (x - 290) ^ 3 +
  -(41545079 / 305775800000000) * (max (x - 400) 0) ^ 3 +
  7658297 / 2751982200000000 * (max (x - 500) 0) ^ 3 +
  -(197981 / 41279733000000) * (max (x - 650) 0) ^ 3 +
  22689331 / 8255946600000000 * (max (x - 800) 0) ^ 3 +
  -(16968791 / 305775800000000) * (max (x - 900) 0) ^ 3 +
  -(29366831 / 68799555000000) * (max (x - 950) 0) ^ 3 +
  352626941 / 343997775000000 * (max (x - 1000) 0) ^ 3 +
  -(4800131 / 31272525000000) * (max (x - 1050) 0) ^ 3 +
  -(223980643 / 343997775000000) * (max (x - 1100) 0) ^ 3

private theorem spline_smooth : ContDiff ℝ 2 spline := by
  have h := pos_smooth
  unfold spline
  fun_prop (disch := norm_num)

private theorem spline_on0 {x : ℝ} (h0 : 290 ≤ x) (h : x ≤ 400) : spline x = 0 + 774893461 / 114665925000 * (x - 290) + -(629649059 / 13759911000000) * (x - 290) ^ 2 + 18642577 / 137599110000000 * (x - 290) ^ 3 := by
  unfold spline
  rw [max_eq_right (by linarith : x - 400 ≤ 0), max_eq_right (by linarith : x - 500 ≤ 0), max_eq_right (by linarith : x - 650 ≤ 0), max_eq_right (by linarith : x - 800 ≤ 0), max_eq_right (by linarith : x - 900 ≤ 0), max_eq_right (by linarith : x - 950 ≤ 0), max_eq_right (by linarith : x - 1000 ≤ 0), max_eq_right (by linarith : x - 1050 ≤ 0), max_eq_right (by linarith : x - 1100 ≤ 0)]
  ring

private theorem spline_on1 {x : ℝ} (h0 : 400 ≤ x) (h : x ≤ 500) : spline x = 37 / 100 + 442739537 / 275198220000 * (x - 400) + -(7222009 / 6879955500000) * (x - 400) ^ 2 + -(1054171 / 2751982200000000) * (x - 400) ^ 3 := by
  unfold spline
  rw [max_eq_left (by linarith : (0 : ℝ) ≤ x - 400), max_eq_right (by linarith : x - 500 ≤ 0), max_eq_right (by linarith : x - 650 ≤ 0), max_eq_right (by linarith : x - 800 ≤ 0), max_eq_right (by linarith : x - 900 ≤ 0), max_eq_right (by linarith : x - 950 ≤ 0), max_eq_right (by linarith : x - 1000 ≤ 0), max_eq_right (by linarith : x - 1050 ≤ 0), max_eq_right (by linarith : x - 1100 ≤ 0)]
  ring

private theorem spline_on2 {x : ℝ} (h0 : 500 ≤ x) (h : x ≤ 650) : spline x = 13 / 25 + 5302791 / 3822197500 * (x - 500) + -(32050549 / 27519822000000) * (x - 500) ^ 2 + 3302063 / 1375991100000000 * (x - 500) ^ 3 := by
  unfold spline
  rw [max_eq_left (by linarith : (0 : ℝ) ≤ x - 400), max_eq_left (by linarith : (0 : ℝ) ≤ x - 500), max_eq_right (by linarith : x - 650 ≤ 0), max_eq_right (by linarith : x - 800 ≤ 0), max_eq_right (by linarith : x - 900 ≤ 0), max_eq_right (by linarith : x - 950 ≤ 0), max_eq_right (by linarith : x - 1000 ≤ 0), max_eq_right (by linarith : x - 1050 ≤ 0), max_eq_right (by linarith : x - 1100 ≤ 0)]
  ring

private theorem spline_on3 {x : ℝ} (h0 : 650 ≤ x) (h : x ≤ 800) : spline x = 71 / 100 + 20013767 / 16678680000 * (x - 650) + -(1165991 / 13759911000000) * (x - 650) ^ 2 + -(9891911 / 4127973300000000) * (x - 650) ^ 3 := by
  unfold spline
  rw [max_eq_left (by linarith : (0 : ℝ) ≤ x - 400), max_eq_left (by linarith : (0 : ℝ) ≤ x - 500), max_eq_left (by linarith : (0 : ℝ) ≤ x - 650), max_eq_right (by linarith : x - 800 ≤ 0), max_eq_right (by linarith : x - 900 ≤ 0), max_eq_right (by linarith : x - 950 ≤ 0), max_eq_right (by linarith : x - 1000 ≤ 0), max_eq_right (by linarith : x - 1050 ≤ 0), max_eq_right (by linarith : x - 1100 ≤ 0)]
  ring

private theorem spline_on4 {x : ℝ} (h0 : 800 ≤ x) (h : x ≤ 900) : spline x = 22 / 25 + 9290587 / 9173274000 * (x - 800) + -(6401543 / 5503964400000) * (x - 800) ^ 2 + 968503 / 2751982200000000 * (x - 800) ^ 3 := by
  unfold spline
  rw [max_eq_left (by linarith : (0 : ℝ) ≤ x - 400), max_eq_left (by linarith : (0 : ℝ) ≤ x - 500), max_eq_left (by linarith : (0 : ℝ) ≤ x - 650), max_eq_left (by linarith : (0 : ℝ) ≤ x - 800), max_eq_right (by linarith : x - 900 ≤ 0), max_eq_right (by linarith : x - 950 ≤ 0), max_eq_right (by linarith : x - 1000 ≤ 0), max_eq_right (by linarith : x - 1050 ≤ 0), max_eq_right (by linarith : x - 1100 ≤ 0)]
  ring

private theorem spline_on5 {x : ℝ} (h0 : 900 ≤ x) (h : x ≤ 950) : spline x = 97 / 100 + 217607689 / 275198220000 * (x - 900) + -(14551103 / 13759911000000) * (x - 900) ^ 2 + -(18968827 / 343997775000000) * (x - 900) ^ 3 := by
  unfold spline
  rw [max_eq_left (by linarith : (0 : ℝ) ≤ x - 400), max_eq_left (by linarith : (0 : ℝ) ≤ x - 500), max_eq_left (by linarith : (0 : ℝ) ≤ x - 650), max_eq_left (by linarith : (0 : ℝ) ≤ x - 800), max_eq_left (by linarith : (0 : ℝ) ≤ x - 900), max_eq_right (by linarith : x - 950 ≤ 0), max_eq_right (by linarith : x - 1000 ≤ 0), max_eq_right (by linarith : x - 1050 ≤ 0), max_eq_right (by linarith : x - 1100 ≤ 0)]
  ring

private theorem spline_on6 {x : ℝ} (h0 : 950 ≤ x) (h : x ≤ 1000) : spline x = 1 + 8299169 / 30577580000 * (x - 950) + -(25672813 / 2751982200000) * (x - 950) ^ 2 + -(82901491 / 171998887500000) * (x - 950) ^ 3 := by
  unfold spline
  rw [max_eq_left (by linarith : (0 : ℝ) ≤ x - 400), max_eq_left (by linarith : (0 : ℝ) ≤ x - 500), max_eq_left (by linarith : (0 : ℝ) ≤ x - 650), max_eq_left (by linarith : (0 : ℝ) ≤ x - 800), max_eq_left (by linarith : (0 : ℝ) ≤ x - 900), max_eq_left (by linarith : (0 : ℝ) ≤ x - 950), max_eq_right (by linarith : x - 1000 ≤ 0), max_eq_right (by linarith : x - 1050 ≤ 0), max_eq_right (by linarith : x - 1100 ≤ 0)]
  ring

private theorem spline_on7 {x : ℝ} (h0 : 1000 ≤ x) (h : x ≤ 1050) : spline x = 93 / 100 + -(1176853501 / 275198220000) * (x - 1000) + -(1123181957 / 13759911000000) * (x - 1000) ^ 2 + 62274653 / 114665925000000 * (x - 1000) ^ 3 := by
  unfold spline
  rw [max_eq_left (by linarith : (0 : ℝ) ≤ x - 400), max_eq_left (by linarith : (0 : ℝ) ≤ x - 500), max_eq_left (by linarith : (0 : ℝ) ≤ x - 650), max_eq_left (by linarith : (0 : ℝ) ≤ x - 800), max_eq_left (by linarith : (0 : ℝ) ≤ x - 900), max_eq_left (by linarith : (0 : ℝ) ≤ x - 950), max_eq_left (by linarith : (0 : ℝ) ≤ x - 1000), max_eq_right (by linarith : x - 1050 ≤ 0), max_eq_right (by linarith : x - 1100 ≤ 0)]
  ring

private theorem spline_on8 {x : ℝ} (h0 : 1050 ≤ x) (h : x ≤ 1100) : spline x = 29 / 50 + -(2302273661 / 275198220000) * (x - 1050) + -(203473 / 1250901000000) * (x - 1050) ^ 2 + 2913533 / 7478212500000 * (x - 1050) ^ 3 := by
  unfold spline
  rw [max_eq_left (by linarith : (0 : ℝ) ≤ x - 400), max_eq_left (by linarith : (0 : ℝ) ≤ x - 500), max_eq_left (by linarith : (0 : ℝ) ≤ x - 650), max_eq_left (by linarith : (0 : ℝ) ≤ x - 800), max_eq_left (by linarith : (0 : ℝ) ≤ x - 900), max_eq_left (by linarith : (0 : ℝ) ≤ x - 950), max_eq_left (by linarith : (0 : ℝ) ≤ x - 1000), max_eq_left (by linarith : (0 : ℝ) ≤ x - 1050), max_eq_right (by linarith : x - 1100 ≤ 0)]
  ring

private theorem spline_on9 {x : ℝ} (h0 : 1100 ≤ x) (h : x ≤ 1190) : spline x = 21 / 100 + -(500871653 / 91732740000) * (x - 1100) + 160379381 / 2751982200000 * (x - 1100) ^ 2 + -(143933 / 550396440000) * (x - 1100) ^ 3 := by
  unfold spline
  rw [max_eq_left (by linarith : (0 : ℝ) ≤ x - 400), max_eq_left (by linarith : (0 : ℝ) ≤ x - 500), max_eq_left (by linarith : (0 : ℝ) ≤ x - 650), max_eq_left (by linarith : (0 : ℝ) ≤ x - 800), max_eq_left (by linarith : (0 : ℝ) ≤ x - 900), max_eq_left (by linarith : (0 : ℝ) ≤ x - 950), max_eq_left (by linarith : (0 : ℝ) ≤ x - 1000), max_eq_left (by linarith : (0 : ℝ) ≤ x - 1050), max_eq_left (by linarith : (0 : ℝ) ≤ x - 1100)]
  ring

/-- **C206a, existence.** There is such a spline: with `spline_unique` it is *the* spline through the data. -/
theorem spline_exists : IsSpline spline where
  smooth := spline_smooth
  through := by
    simp only [srData, List.forall_mem_cons, List.not_mem_nil, false_imp_iff, implies_true, and_true]
    refine ⟨?_, ?_, ?_, ?_, ?_, ?_, ?_, ?_, ?_, ?_, ?_, ?_, ?_⟩
    · rw [spline_on0 (by norm_num) (by norm_num)]; norm_num
    · rw [spline_on0 (by norm_num) (by norm_num)]; norm_num
    · rw [spline_on1 (by norm_num) (by norm_num)]; norm_num
    · rw [spline_on2 (by norm_num) (by norm_num)]; norm_num
    · rw [spline_on3 (by norm_num) (by norm_num)]; norm_num
    · rw [spline_on4 (by norm_num) (by norm_num)]; norm_num
    · rw [spline_on5 (by norm_num) (by norm_num)]; norm_num
    · rw [spline_on6 (by norm_num) (by norm_num)]; norm_num
    · rw [spline_on7 (by norm_num) (by norm_num)]; norm_num
    · rw [spline_on8 (by norm_num) (by norm_num)]; norm_num
    · rw [spline_on9 (by norm_num) (by norm_num)]; norm_num
    · rw [spline_on9 (by norm_num) (by norm_num)]; norm_num
    · rw [spline_on9 (by norm_num) (by norm_num)]; norm_num
  cubic := ⟨⟨_, _, _, _, fun _ hx => spline_on0 hx.1 hx.2⟩, ⟨_, _, _, _, fun _ hx => spline_on1 hx.1 hx.2⟩, ⟨_, _, _, _, fun _ hx => spline_on2 hx.1 hx.2⟩, ⟨_, _, _, _, fun _ hx => spline_on3 hx.1 hx.2⟩, ⟨_, _, _, _, fun _ hx => spline_on4 hx.1 hx.2⟩, ⟨_, _, _, _, fun _ hx => spline_on5 hx.1 hx.2⟩, ⟨_, _, _, _, fun _ hx => spline_on6 hx.1 hx.2⟩, ⟨_, _, _, _, fun _ hx => spline_on7 hx.1 hx.2⟩, ⟨_, _, _, _, fun _ hx => spline_on8 hx.1 hx.2⟩, ⟨_, _, _, _, fun _ hx => spline_on9 hx.1 hx.2⟩⟩

/-! ### Bounds -/

private theorem bernstein {b0 b1 b2 b3 t u : ℝ} (ht : 0 ≤ t) (hu : 0 ≤ u) (h0 : 0 ≤ b0) (h1 : 0 ≤ b1) (h2 : 0 ≤ b2) (h3 : 0 ≤ b3) :
    0 ≤ b0 * u ^ 3 + 3 * b1 * t * u ^ 2 + 3 * b2 * t ^ 2 * u + b3 * t ^ 3 := by positivity

private theorem bernstein_pos {b0 b1 b2 b3 t u : ℝ} (ht : 0 < t) (hu : 0 < u) (h0 : 0 ≤ b0) (h1 : 0 < b1) (h2 : 0 < b2) (h3 : 0 ≤ b3) :
    0 < b0 * u ^ 3 + 3 * b1 * t * u ^ 2 + 3 * b2 * t ^ 2 * u + b3 * t ^ 3 := by positivity

private theorem pos0 {x : ℝ} (h0 : 290 < x) (h : x ≤ 350) : 0 < srSpline x := by
  rw [piece0 h]
  rcases h.eq_or_lt with rfl | h'
  · norm_num
  have := bernstein_pos (b0 := 0) (b1 := 774893461 / 1238391990000000) (b2 := 493984957 / 495356796000000) (b3 := 1 / 800000) (sub_pos.2 h0) (sub_pos.2 h') (by norm_num) (by norm_num) (by norm_num) (by norm_num)
  linarith

private theorem pos1 {x : ℝ} (h0 : 350 < x) (h : x ≤ 400) : 0 < srSpline x := by
  rw [piece1 h0 h]
  rcases h.eq_or_lt with rfl | h'
  · norm_num
  have := bernstein_pos (b0 := 27 / 12500000) (b1 := 108530779 / 42999721875000) (b2 := 5666660947 / 2063986650000000) (b3 := 37 / 12500000) (sub_pos.2 h0) (sub_pos.2 h') (by norm_num) (by norm_num) (by norm_num) (by norm_num)
  linarith

private theorem pos2 {x : ℝ} (h0 : 400 < x) (h : x ≤ 500) : 0 < srSpline x := by
  rw [piece2 h0 h]
  rcases h.eq_or_lt with rfl | h'
  · norm_num
  have := bernstein_pos (b0 := 37 / 100000000) (b1 := 3497439779 / 8255946600000000) (b2 := 1810783 / 3822197500000) (b3 := 13 / 25000000) (sub_pos.2 h0) (sub_pos.2 h') (by norm_num) (by norm_num) (by norm_num) (by norm_num)
  linarith

private theorem pos3 {x : ℝ} (h0 : 500 < x) (h : x ≤ 650) : 0 < srSpline x := by
  rw [piece3 h0 h]
  rcases h.eq_or_lt with rfl | h'
  · norm_num
  have := bernstein_pos (b0 := 13 / 84375000) (b1 := 9010729 / 51599666250000) (b2 := 216823489 / 1125810900000000) (b3 := 71 / 337500000) (sub_pos.2 h0) (sub_pos.2 h') (by norm_num) (by norm_num) (by norm_num) (by norm_num)
  linarith

private theorem pos4 {x : ℝ} (h0 : 650 < x) (h : x ≤ 800) : 0 < srSpline x := by
  rw [piece4 h0 h]
  rcases h.eq_or_lt with rfl | h'
  · norm_num
  have := bernstein_pos (b0 := 71 / 337500000) (b1 := 256851023 / 1125810900000000) (b2 := 760795177 / 3095979975000000) (b3 := 11 / 42187500) (sub_pos.2 h0) (sub_pos.2 h') (by norm_num) (by norm_num) (by norm_num) (by norm_num)
  linarith

private theorem pos5 {x : ℝ} (h0 : 800 < x) (h : x ≤ 900) : 0 < srSpline x := by
  rw [piece5 h0 h]
  rcases h.eq_or_lt with rfl | h'
  · norm_num
  have := bernstein_pos (b0 := 11 / 12500000) (b1 := 1257325103 / 1375991100000000) (b2 := 7790660513 / 8255946600000000) (b3 := 97 / 100000000) (sub_pos.2 h0) (sub_pos.2 h') (by norm_num) (by norm_num) (by norm_num) (by norm_num)
  linarith

private theorem pos6 {x : ℝ} (h0 : 900 < x) (h : x ≤ 950) : 0 < srSpline x := by
  rw [piece6 h0 h]
  rcases h.eq_or_lt with rfl | h'
  · norm_num
  have := bernstein_pos (b0 := 97 / 12500000) (b1 := 16234144093 / 2063986650000000) (b2 := 1826355631 / 229331850000000) (b3 := 1 / 125000) (sub_pos.2 h0) (sub_pos.2 h') (by norm_num) (by norm_num) (by norm_num) (by norm_num)
  linarith

private theorem pos7 {x : ℝ} (h0 : 950 < x) (h : x ≤ 1000) : 0 < srSpline x := by
  rw [piece7 h0 h]
  rcases h.eq_or_lt with rfl | h'
  · norm_num
  have := bernstein_pos (b0 := 1 / 125000) (b1 := 1842953969 / 229331850000000) (b2 := 16532914177 / 2063986650000000) (b3 := 93 / 12500000) (sub_pos.2 h0) (sub_pos.2 h') (by norm_num) (by norm_num) (by norm_num) (by norm_num)
  linarith

private theorem pos8 {x : ℝ} (h0 : 1000 < x) (h : x ≤ 1050) : 0 < srSpline x := by
  rw [piece8 h0 h]
  rcases h.eq_or_lt with rfl | h'
  · norm_num
  have := bernstein_pos (b0 := 93 / 12500000) (b1 := 567168287 / 82559466000000) (b2 := 11879171717 / 2063986650000000) (b3 := 29 / 6250000) (sub_pos.2 h0) (sub_pos.2 h') (by norm_num) (by norm_num) (by norm_num) (by norm_num)
  linarith

private theorem pos9 {x : ℝ} (h0 : 1050 < x) (h : x ≤ 1100) : 0 < srSpline x := by
  rw [piece9 h0 h]
  rcases h.eq_or_lt with rfl | h'
  · norm_num
  have := bernstein_pos (b0 := 29 / 6250000) (b1 := 1454924879 / 412797330000000) (b2 := 1656704177 / 687995550000000) (b3 := 21 / 12500000) (sub_pos.2 h0) (sub_pos.2 h') (by norm_num) (by norm_num) (by norm_num) (by norm_num)
  linarith

private theorem pos10 {x : ℝ} (h0 : 1100 < x) (h : x ≤ 1150) : 0 < srSpline x := by
  rw [piece10 h0 h]
  rcases h.eq_or_lt with rfl | h'
  · norm_num
  have := bernstein_pos (b0 := 21 / 12500000) (b1 := 654960871 / 687995550000000) (b2 := 1264164559 / 2063986650000000) (b3 := 1 / 2500000) (sub_pos.2 h0) (sub_pos.2 h') (by norm_num) (by norm_num) (by norm_num) (by norm_num)
  linarith

private theorem pos11 {x : ℝ} (h0 : 1150 < x) (h : x < 1190) : 0 < srSpline x := by
  rw [piece11 h0 h.le]
  have := bernstein_pos (b0 := 1 / 1280000) (b1 := 296711713 / 660475728000000) (b2 := 121524017 / 440317152000000) (b3 := 0) (sub_pos.2 h0) (sub_pos.2 h) (by norm_num) (by norm_num) (by norm_num) (by norm_num)
  linarith

private theorem top0 {x : ℝ} (h0 : 290 ≤ x) (h : x ≤ 350) : srSpline x ≤ 1 := by
  rw [piece0 h]
  have := bernstein (b0 := 1 / 216000) (b1 := 4958402789 / 1238391990000000) (b2 := 1799333543 / 495356796000000) (b3 := 73 / 21600000) (t := x - 290) (u := 350 - x) (by linarith) (by linarith) (by norm_num) (by norm_num) (by norm_num) (by norm_num)
  linarith

private theorem top1 {x : ℝ} (h0 : 350 < x) (h : x ≤ 400) : srSpline x ≤ 1 := by
  rw [piece1 h0 h]
  have := bernstein (b0 := 73 / 12500000) (b1 := 58866749 / 10749930468750) (b2 := 10845232253 / 2063986650000000) (b3 := 63 / 12500000) (t := x - 350) (u := 400 - x) (by linarith) (by linarith) (by norm_num) (by norm_num) (by norm_num) (by norm_num)
  linarith

private theorem top2 {x : ℝ} (h0 : 400 < x) (h : x ≤ 500) : srSpline x ≤ 1 := by
  rw [piece2 h0 h]
  have := bernstein (b0 := 63 / 100000000) (b1 := 4758506821 / 8255946600000000) (b2 := 4022829 / 7644395000000) (b3 := 3 / 6250000) (t := x - 400) (u := 500 - x) (by linarith) (by linarith) (by norm_num) (by norm_num) (by norm_num) (by norm_num)
  linarith

private theorem top3 {x : ℝ} (h0 : 500 < x) (h : x ≤ 650) : srSpline x ≤ 1 := by
  rw [piece3 h0 h]
  have := bernstein (b0 := 1 / 7031250) (b1 := 2092687 / 17199888750000) (b2 := 116750111 / 1125810900000000) (b3 := 29 / 337500000) (t := x - 500) (u := 650 - x) (by linarith) (by linarith) (by norm_num) (by norm_num) (by norm_num) (by norm_num)
  linarith

private theorem top4 {x : ℝ} (h0 : 650 < x) (h : x ≤ 800) : srSpline x ≤ 1 := by
  rw [piece4 h0 h]
  have := bernstein (b0 := 29 / 337500000) (b1 := 76722577 / 1125810900000000) (b2 := 156532223 / 3095979975000000) (b3 := 1 / 28125000) (t := x - 650) (u := 800 - x) (by linarith) (by linarith) (by norm_num) (by norm_num) (by norm_num) (by norm_num)
  linarith

private theorem top5 {x : ℝ} (h0 : 800 < x) (h : x ≤ 900) : srSpline x ≤ 1 := by
  rw [piece5 h0 h]
  have := bernstein (b0 := 3 / 25000000) (b1 := 118665997 / 1375991100000000) (b2 := 465286087 / 8255946600000000) (b3 := 3 / 100000000) (t := x - 800) (u := 900 - x) (by linarith) (by linarith) (by norm_num) (by norm_num) (by norm_num) (by norm_num)
  linarith

private theorem top6 {x : ℝ} (h0 : 900 < x) (h : x ≤ 950) : srSpline x ≤ 1 := by
  rw [piece6 h0 h]
  have := bernstein (b0 := 3 / 12500000) (b1 := 277749107 / 2063986650000000) (b2 := 8299169 / 229331850000000) (b3 := 0) (t := x - 900) (u := 950 - x) (by linarith) (by linarith) (by norm_num) (by norm_num) (by norm_num) (by norm_num)
  linarith

private theorem top7 {x : ℝ} (h0 : 950 < x) (h : x ≤ 1000) : srSpline x ≤ 501 / 500 := by
  rw [piece7 h0 h]
  rcases le_total x 960 with hm | hm
  · skip
    have := bernstein (b0 := 1 / 500000) (b1 := 10047379 / 9173274000000) (b2 := 41406703 / 82559466000000) (b3 := 120526091 / 171998887500000) (t := x - 950) (u := 960 - x) (by linarith) (by linarith) (by norm_num) (by norm_num) (by norm_num) (by norm_num)
    linarith
  · skip
    have := bernstein (b0 := 120526091 / 11007928800000000) (b1 := 77272379 / 3302378640000000) (b2 := 309216887 / 1320951456000000) (b3 := 9 / 8000000) (t := x - 960) (u := 1000 - x) (by linarith) (by linarith) (by norm_num) (by norm_num) (by norm_num) (by norm_num)
    linarith

private theorem top8 {x : ℝ} (h0 : 1000 < x) (h : x ≤ 1050) : srSpline x ≤ 1 := by
  rw [piece8 h0 h]
  have := bernstein (b0 := 7 / 12500000) (b1 := 93307441 / 82559466000000) (b2 := 4632721483 / 2063986650000000) (b3 := 21 / 6250000) (t := x - 1000) (u := 1050 - x) (by linarith) (by linarith) (by norm_num) (by norm_num) (by norm_num) (by norm_num)
  linarith

private theorem top9 {x : ℝ} (h0 : 1050 < x) (h : x ≤ 1100) : srSpline x ≤ 1 := by
  rw [piece9 h0 h]
  have := bernstein (b0 := 21 / 6250000) (b1 := 1847453761 / 412797330000000) (b2 := 3847260223 / 687995550000000) (b3 := 79 / 12500000) (t := x - 1050) (u := 1100 - x) (by linarith) (by linarith) (by norm_num) (by norm_num) (by norm_num) (by norm_num)
  linarith

private theorem top10 {x : ℝ} (h0 : 1100 < x) (h : x ≤ 1150) : srSpline x ≤ 1 := by
  rw [piece10 h0 h]
  have := bernstein (b0 := 79 / 12500000) (b1 := 4849003529 / 687995550000000) (b2 := 15247728641 / 2063986650000000) (b3 := 19 / 2500000) (t := x - 1100) (u := 1150 - x) (by linarith) (by linarith) (by norm_num) (by norm_num) (by norm_num) (by norm_num)
  linarith

private theorem top11 {x : ℝ} (h0 : 1150 < x) (h : x ≤ 1190) : srSpline x ≤ 1 := by
  rw [piece11 h0 h]
  have := bernstein (b0 := 19 / 1280000) (b1 := 10023221537 / 660475728000000) (b2 := 6758431483 / 440317152000000) (b3 := 1 / 64000) (t := x - 1150) (u := 1190 - x) (by linarith) (by linarith) (by norm_num) (by norm_num) (by norm_num) (by norm_num)
  linarith

/-- **C206b.** Strictly inside the table's range the response is positive. -/
theorem response_pos {x : ℝ} (h0 : 290 < x) (h1 : x < 1190) : ∃ y, exampleSrAt (fin x) = fin y ∧ 0 < y := by
  refine ⟨srSpline x, ?_, ?_⟩
  · simp only [exampleSrAt]; rw [if_neg (by push Not; exact ⟨h0.le, h1.le⟩)]
  by_cases hx : x ≤ 350
  · exact pos0 h0 hx
  have l0 : 350 < x := not_le.1 hx
  clear hx
  by_cases hx : x ≤ 400
  · exact pos1 l0 hx
  have l1 : 400 < x := not_le.1 hx
  clear hx
  by_cases hx : x ≤ 500
  · exact pos2 l1 hx
  have l2 : 500 < x := not_le.1 hx
  clear hx
  by_cases hx : x ≤ 650
  · exact pos3 l2 hx
  have l3 : 650 < x := not_le.1 hx
  clear hx
  by_cases hx : x ≤ 800
  · exact pos4 l3 hx
  have l4 : 800 < x := not_le.1 hx
  clear hx
  by_cases hx : x ≤ 900
  · exact pos5 l4 hx
  have l5 : 900 < x := not_le.1 hx
  clear hx
  by_cases hx : x ≤ 950
  · exact pos6 l5 hx
  have l6 : 950 < x := not_le.1 hx
  clear hx
  by_cases hx : x ≤ 1000
  · exact pos7 l6 hx
  have l7 : 1000 < x := not_le.1 hx
  clear hx
  by_cases hx : x ≤ 1050
  · exact pos8 l7 hx
  have l8 : 1050 < x := not_le.1 hx
  clear hx
  by_cases hx : x ≤ 1100
  · exact pos9 l8 hx
  have l9 : 1100 < x := not_le.1 hx
  clear hx
  by_cases hx : x ≤ 1150
  · exact pos10 l9 hx
  have l10 : 1150 < x := not_le.1 hx
  clear hx
  exact pos11 l10 h1

/-- **C206c.** No value exceeds 1.002; between 950 and 1000 nm the spline overshoots the relative response 1 of the table, elsewhere it does not. -/
theorem response_le {x : ℝ} : ∃ y, exampleSrAt (fin x) = fin y ∧ 0 ≤ y ∧ y ≤ 1.002 ∧ (1 < y → 950 < x ∧ x < 1000) := by
  by_cases hr : x < 290 ∨ x > 1190
  · exact ⟨0, by simp only [exampleSrAt]; rw [if_pos hr]; rfl, le_rfl, by norm_num, fun h => absurd h (by norm_num)⟩
  have hr' := hr
  push Not at hr'
  obtain ⟨h0, h1⟩ := hr'
  refine ⟨srSpline x, by simp only [exampleSrAt]; rw [if_neg hr], ?_⟩
  have h950 : x = 1000 → srSpline x ≤ 1 := by
    rintro rfl
    rw [piece7 (by norm_num) (by norm_num)]; norm_num
  constructor
  · rcases h0.eq_or_lt with rfl | h0'
    · rw [piece0 (by norm_num)]; norm_num
    rcases h1.eq_or_lt with rfl | h1'
    · rw [piece11 (by norm_num) (by norm_num)]; norm_num
    obtain ⟨y, hy, hp⟩ := response_pos h0' h1'
    simp only [exampleSrAt] at hy
    rw [if_neg hr] at hy
    rw [Fl.fin.inj hy]; exact hp.le
  by_cases hx : x ≤ 350
  · exact ⟨by linarith [top0 h0 hx], fun h => absurd (top0 h0 hx) (by linarith)⟩
  have l0 : 350 < x := not_le.1 hx
  clear hx
  by_cases hx : x ≤ 400
  · exact ⟨by linarith [top1 l0 hx], fun h => absurd (top1 l0 hx) (by linarith)⟩
  have l1 : 400 < x := not_le.1 hx
  clear hx
  by_cases hx : x ≤ 500
  · exact ⟨by linarith [top2 l1 hx], fun h => absurd (top2 l1 hx) (by linarith)⟩
  have l2 : 500 < x := not_le.1 hx
  clear hx
  by_cases hx : x ≤ 650
  · exact ⟨by linarith [top3 l2 hx], fun h => absurd (top3 l2 hx) (by linarith)⟩
  have l3 : 650 < x := not_le.1 hx
  clear hx
  by_cases hx : x ≤ 800
  · exact ⟨by linarith [top4 l3 hx], fun h => absurd (top4 l3 hx) (by linarith)⟩
  have l4 : 800 < x := not_le.1 hx
  clear hx
  by_cases hx : x ≤ 900
  · exact ⟨by linarith [top5 l4 hx], fun h => absurd (top5 l4 hx) (by linarith)⟩
  have l5 : 900 < x := not_le.1 hx
  clear hx
  by_cases hx : x ≤ 950
  · exact ⟨by linarith [top6 l5 hx], fun h => absurd (top6 l5 hx) (by linarith)⟩
  have l6 : 950 < x := not_le.1 hx
  clear hx
  by_cases hx : x ≤ 1000
  · exact ⟨by linarith [top7 l6 hx], fun h => ⟨l6, lt_of_le_of_ne hx fun e => absurd (h950 e) (by linarith)⟩⟩
  have l7 : 1000 < x := not_le.1 hx
  clear hx
  by_cases hx : x ≤ 1050
  · exact ⟨by linarith [top8 l7 hx], fun h => absurd (top8 l7 hx) (by linarith)⟩
  have l8 : 1050 < x := not_le.1 hx
  clear hx
  by_cases hx : x ≤ 1100
  · exact ⟨by linarith [top9 l8 hx], fun h => absurd (top9 l8 hx) (by linarith)⟩
  have l9 : 1100 < x := not_le.1 hx
  clear hx
  by_cases hx : x ≤ 1150
  · exact ⟨by linarith [top10 l9 hx], fun h => absurd (top10 l9 hx) (by linarith)⟩
  have l10 : 1150 < x := not_le.1 hx
  clear hx
  exact ⟨by linarith [top11 l10 h1], fun h => absurd (top11 l10 h1) (by linarith)⟩

/-- **C206c, witness.** The overshoot is real: at 959 nm the response is above 1. -/
theorem response_overshoots : ∃ y, exampleSrAt (fin 959) = fin y ∧ 1 < y := by
  refine ⟨srSpline 959, ?_, ?_⟩
  · simp only [exampleSrAt]; rw [if_neg (by norm_num)]
  · rw [piece7 (by norm_num) (by norm_num)]; norm_num

/-- **C206d.** At the wavelengths of the table the response is the table's; outside it is 0, at infinity too; NaN gives NaN. -/
theorem response_data : (∀ p ∈ srData, exampleSrAt (fin p.1) = fin p.2) ∧ (∀ x : ℝ, x < 290 ∨ 1190 < x → exampleSrAt (fin x) = 0) ∧
    exampleSrAt pinf = 0 ∧ exampleSrAt ninf = 0 ∧ exampleSrAt nan = nan := by
  refine ⟨?_, fun x hx => by simp only [exampleSrAt]; rw [if_pos hx], rfl, rfl, rfl⟩
  intro p hp
  have hr : 290 ≤ p.1 ∧ p.1 ≤ 1190 := by
    revert p
    simp only [srData, List.forall_mem_cons, List.not_mem_nil, false_imp_iff, implies_true, and_true]
    norm_num
  simp only [exampleSrAt]
  rw [if_neg (by push Not; exact hr), spline_unique spline_exists hr.1 hr.2, spline_exists.through p hp]

/-- **C206e.** The series has one value per wavelength, in order; by default every 5 nm from 280 to 1200. -/
theorem response_series (w : List Fl) : (exampleSr (some w)).map Prod.fst = w ∧ (∀ p ∈ exampleSr (some w), p.2 = exampleSrAt p.1) ∧
    (exampleSr none).length = 185 ∧ (exampleSr none).head?.map Prod.fst = some (fin 280) ∧
    (exampleSr none).getLast?.map Prod.fst = some (fin 1200) ∧
    ∀ (i : ℕ) p q, (exampleSr none)[i]? = some p → (exampleSr none)[i + 1]? = some q → ∃ a, p.1 = fin a ∧ q.1 = fin (a + 5) ∧ p.2 = exampleSrAt p.1 := by
  refine ⟨?_, ?_, ?_, ?_, ?_, ?_⟩
  · simp [exampleSr, Function.comp_def]
  · intro p hp
    simp only [exampleSr, List.mem_map] at hp
    obtain ⟨x, -, rfl⟩ := hp
    rfl
  · simp [exampleSr]
  · simp [exampleSr, List.head?_range]
  · simp [exampleSr, List.getLast?_range]; norm_num
  · intro i p q hp hq
    simp only [exampleSr, List.map_map, List.getElem?_map, Option.map_eq_some_iff, List.getElem?_range, Function.comp] at hp hq
    obtain ⟨a, ha, rfl⟩ := hp
    obtain ⟨b, hb, rfl⟩ := hq
    obtain ⟨ha1, rfl⟩ := List.getElem?_eq_some_iff.1 ha
    obtain ⟨hb1, rfl⟩ := List.getElem?_eq_some_iff.1 hb
    refine ⟨_, rfl, ?_, rfl⟩
    simp; ring

end Pvlib.Props.SpectralResponse
end
