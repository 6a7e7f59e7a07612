import Verif.Props.SandiaSimple
import Mathlib.MeasureTheory.Integral.IntervalIntegral.FundThmCalculus
import Mathlib.Analysis.SpecialFunctions.Integrals.Basic
import Mathlib.Analysis.Calculus.Deriv.Inverse
import Mathlib.Topology.Order.MonotoneContinuity

/-! # C145: the co-content fit of the single diode equation -/

noncomputable section
open scoped Classical
open Real
namespace Pvlib.Props.Cocontent
open Fl Pvlib.Sde Pvlib.IvTools Pvlib.Props.SandiaSimple

/-! ## Inputs -/

/-- **C145, inputs.**  Arrays of different lengths and fewer than 6 points are rejected; nothing else is. -/
theorem input_errors (lib : LinLib) (nv ni : ℕ) (v i : Series) (ns : Fl) :
    (ni ≠ nv ∨ nv < 6 ↔ fitSandiaCocontent lib nv ni v i ns = .error .valueError) ∧
    (ni = nv → 6 ≤ nv → ∃ p, fitSandiaCocontent lib nv ni v i ns = .ok p) := by
  unfold fitSandiaCocontent
  by_cases h1 : ni = nv
  · by_cases h2 : nv < 6
    · simp [h1, h2]
    · simp [h1, h2]
  · simp [h1]

example (lib v i ns) := (input_errors lib 5 5 v i ns).1.mp (.inr (by norm_num))
example (lib v i ns) := (input_errors lib 6 6 v i ns).2 rfl (by norm_num)

/-! ## The numerical co-content -/

/-- The integral of the quadratic piece `c0 (x - a)² + c1 (x - a) + c2` over `[a, b]`. -/
def pieceIntegral (a b : ℝ) (c : ℝ × ℝ × ℝ) : ℝ := ∫ x in a..b, c.1 * (x - a) ^ 2 + c.2.1 * (x - a) + c.2.2

private theorem pieceIntegral_eq (a b : ℝ) (c : ℝ × ℝ × ℝ) :
    pieceIntegral a b c = c.1 * (1 / 3) * (b - a) ^ 3 + c.2.1 * 0.5 * (b - a) ^ 2 + c.2.2 * 1 * (b - a) := by
  unfold pieceIntegral
  have hd : ∀ x ∈ Set.uIcc a b, HasDerivAt (fun x => c.1 / 3 * (x - a) ^ 3 + c.2.1 / 2 * (x - a) ^ 2 + c.2.2 * (x - a))
      (c.1 * (x - a) ^ 2 + c.2.1 * (x - a) + c.2.2) x := by
    intro x _
    have h := (hasDerivAt_id x).sub_const a
    refine ((((h.pow 3).const_mul (c.1 / 3)).add ((h.pow 2).const_mul (c.2.1 / 2))).add (h.const_mul c.2.2)).congr_deriv ?_
    simp only [id]; ring
  rw [intervalIntegral.integral_eq_sub_of_hasDerivAt hd
    (Continuous.intervalIntegrable (by fun_prop) _ _)]
  simp only [sub_self]; ring

/-- The model's arrays hold these real knots and coefficients. -/
private def Holds (xn : ℕ) (V : Series) (C : ℕ → Fl × Fl × Fl) (v : ℕ → ℝ) (c : ℕ → ℝ × ℝ × ℝ) : Prop :=
  ∀ j < xn, V j = fin (v j) ∧ C j = (fin (c j).1, fin (c j).2.1, fin (c j).2.2)

private theorem tmpint_fin {xn : ℕ} {V : Series} {C : ℕ → Fl × Fl × Fl} {v : ℕ → ℝ} {c : ℕ → ℝ × ℝ × ℝ}
    (H : Holds xn V C v c) (k : ℕ) (hk : k < xn) :
    tmpint V C k = fin (if k = 0 then 0 else pieceIntegral (v (k - 1)) (v k) (c (k - 1))) := by
  cases k with
  | zero => rfl
  | succ k =>
    simp only [tmpint, (H k (by omega)).1, (H k (by omega)).2, (H (k + 1) hk).1]
    simp only [ofScientific_eq, one_eq, fin_sub, fin_pow, fin_mul]
    rw [if_neg (by omega), pieceIntegral_eq]
    have : ∀ a b c : ℝ, Fl.sum [fin a, fin b, fin c] = fin (a + b + c) := by
      intro a b c
      have := Fl.sum_fin [a, b, c]
      simp only [List.map_cons, List.map_nil, List.sum_cons, List.sum_nil] at this
      rw [this]; congr 1; ring
    rw [this]
    simp

/-- Sum of the integrals of the pieces before knot `k`. -/
def areaTo (v : ℕ → ℝ) (c : ℕ → ℝ × ℝ × ℝ) (k : ℕ) : ℝ :=
  ∑ j ∈ Finset.range k, pieceIntegral (v j) (v (j + 1)) (c j)

private theorem cumsumFrom_fin {xn : ℕ} {V : Series} {C : ℕ → Fl × Fl × Fl} {v : ℕ → ℝ} {c : ℕ → ℝ × ℝ × ℝ}
    (H : Holds xn V C v c) (lo k : ℕ) (h : lo ≤ k) (hk : k < xn) :
    cumsumFrom (tmpint V C) lo k =
      fin (areaTo v c k - areaTo v c (lo - 1)) := by
  unfold cumsumFrom
  have : ((List.range' lo (k + 1 - lo)).map (tmpint V C)) =
      (((List.range' lo (k + 1 - lo)).map fun j => if j = 0 then 0 else pieceIntegral (v (j - 1)) (v j) (c (j - 1)))).map
        fin := by
    rw [List.map_map]
    apply List.map_congr_left
    intro j hj
    rw [List.mem_range'_1] at hj
    exact tmpint_fin H j (by omega)
  rw [this, Fl.sum_fin, fin_inj]
  obtain ⟨d, rfl⟩ := Nat.exists_eq_add_of_le h
  clear this h hk
  induction d with
  | zero =>
    cases lo with
    | zero => simp [areaTo]
    | succ lo =>
      simp [areaTo, Finset.sum_range_succ]
  | succ d ih =>
    rw [show lo + (d + 1) + 1 - lo = (lo + d + 1 - lo) + 1 by omega, List.range'_concat, List.map_append, List.sum_append, ih]
    simp only [List.map_cons, List.map_nil, List.sum_cons, List.sum_nil, one_mul, add_zero]
    rw [if_neg (by omega)]
    have e1 : lo + (lo + d + 1 - lo) = lo + d + 1 := by omega
    rw [e1]
    have e2 : areaTo v c (lo + (d + 1)) = areaTo v c (lo + d) + pieceIntegral (v (lo + d)) (v (lo + d + 1)) (c (lo + d)) := by
      unfold areaTo
      rw [show lo + (d + 1) = (lo + d) + 1 by omega, Finset.sum_range_succ]
    rw [e2, show lo + d + 1 - 1 = lo + d by omega]
    ring

/-- The three slices of the array together compute the running integral of `Isc - I` at every knot. -/
private theorem scc_fin {xn : ℕ} {V : Series} {C : ℕ → Fl × Fl × Fl} {v : ℕ → ℝ} {c : ℕ → ℝ × ℝ × ℝ}
    (H : Holds xn V C v c) (isc : ℝ) (hx : 6 ≤ xn) (k : ℕ) (hk : k < xn) :
    scc xn V C (fin isc) k =
      fin (isc * v k - areaTo v c k) := by
  have h0 : areaTo v c 0 = 0 := by simp [areaTo]
  have h1 : ∀ k, k < 5 → scc1 V C (fin isc) k =
      fin (isc * v k - areaTo v c k) := by
    intro k hk
    unfold scc1
    rw [if_pos hk, cumsumFrom_fin H 0 k (by omega) (by omega), (H k (by omega)).1]
    simp [h0]
  have h2 : ∀ k, k < 5 ∨ k < xn - 5 →
      scc2 xn V C (fin isc) k =
      fin (isc * v k - areaTo v c k) := by
    intro k hk
    unfold scc2
    by_cases h : 5 ≤ k ∧ k < xn - 5
    · rw [if_pos h, cumsumFrom_fin H 5 k h.1 (by omega), h1 4 (by norm_num), (H k (by omega)).1, (H 4 (by omega)).1]
      simp only [fin_sub, fin_mul, fin_add, fin_inj]
      norm_num
      ring
    · rw [if_neg h]; exact h1 k (by omega)
  unfold scc
  by_cases h : xn - 5 ≤ k
  · rw [if_pos h, cumsumFrom_fin H _ k h hk, h2 (xn - 6) (by omega), (H k hk).1, (H (xn - 6) (by omega)).1]
    simp only [fin_sub, fin_mul, fin_add, fin_inj]
    rw [show xn - 5 - 1 = xn - 6 by omega]
    ring
  · rw [if_neg h]; exact h2 k (by omega)

/-- A real spline row. -/
structure Row where
  t : ℝ
  c : ℝ × ℝ × ℝ
  yhat : ℝ
  kflag : Bool

/-- As the model's row. -/
def Row.lift (r : Row) : QRow := ⟨fin r.t, fin r.c.1, fin r.c.2.1, fin r.c.2.2, fin r.yhat, r.kflag⟩

/-- **C145, the co-content.**  For a spline with at least 6 knots (real values), the array passed to the regression has, for every
data point (every knot not inserted by the spline), in order, `Isc * v - ` the sum of the integrals of the pieces before it: the
integral of `Isc - I` when the first knot is at zero voltage. -/
theorem cocontent_is_integral (rows : List Row) (isc : ℝ) (h6 : 6 ≤ rows.length) :
    cocontent (rows.map Row.lift) (fin isc) =
      ((List.range rows.length).filter fun k => ¬ (rows.map Row.kflag).getD k false).map fun k =>
        fin (isc * (rows.map Row.t).getD k 0 -
          ∑ j ∈ Finset.range k, pieceIntegral ((rows.map Row.t).getD j 0) ((rows.map Row.t).getD (j + 1) 0)
            ((rows.map Row.c).getD j (0, 0, 0))) := by
  unfold cocontent
  simp only [List.length_map, List.map_map]
  have e1 : (QRow.kflag ∘ Row.lift) = Row.kflag := rfl
  rw [e1]
  apply List.map_congr_left
  intro k hk
  have hk' := List.mem_range.mp (List.mem_filter.mp hk).1
  refine scc_fin (v := fun j => (rows.map Row.t).getD j 0) (c := fun j => (rows.map Row.c).getD j (0, 0, 0)) ?_ isc h6 k hk'
  intro j hj
  simp [List.getD_eq_getElem?_getD, List.getElem?_eq_getElem hj, Row.lift]

/-! ## The co-content of a single diode curve -/

/-- A current function `I` all of whose points satisfy the single diode equation. -/
def IsCurve (IL I0 Rs Rsh a : ℝ) (I : ℝ → ℝ) : Prop := ∀ v, OnCurve IL I0 Rs Rsh a v (I v)

theorem hasDerivAt_curve {IL I0 Rs Rsh a : ℝ} {I : ℝ → ℝ} (hI0 : 0 ≤ I0) (hRs : 0 ≤ Rs) (hRsh : 0 < Rsh)
    (ha : 0 < a) (h : IsCurve IL I0 Rs Rsh a I) (v : ℝ) :
    HasDerivAt I (-(I0 / a * Real.exp ((v + I v * Rs) / a) + 1 / Rsh) /
      (1 + Rs * (I0 / a * Real.exp ((v + I v * Rs) / a) + 1 / Rsh))) v := by
  let c : ℝ → ℝ := fun x => IL - I0 * (Real.exp (x / a) - 1) - x / Rsh
  let V : ℝ → ℝ := fun x => x - Rs * c x
  let X : ℝ → ℝ := fun v => v + I v * Rs
  have hc : ∀ v, I v = c (X v) := h
  have hVX : ∀ v, V (X v) = v := by
    intro v
    change X v - Rs * c (X v) = v
    rw [← hc]
    change v + I v * Rs - Rs * I v = v
    ring
  have hcanti : Antitone c := by
    intro x y hxy
    have h1 : Real.exp (x / a) ≤ Real.exp (y / a) := Real.exp_le_exp.mpr (by gcongr)
    have h2 : x / Rsh ≤ y / Rsh := by gcongr
    have h3 := mul_le_mul_of_nonneg_left h1 hI0
    change IL - I0 * (Real.exp (y / a) - 1) - y / Rsh ≤ IL - I0 * (Real.exp (x / a) - 1) - x / Rsh
    linarith
  have hVmono : StrictMono V := by
    intro x y hxy
    have := mul_le_mul_of_nonneg_left (hcanti hxy.le) hRs
    change x - Rs * c x < y - Rs * c y
    linarith
  have hXmono : Monotone X := by
    intro u w huw
    by_contra hlt
    push Not at hlt
    have := hVmono hlt
    rw [hVX, hVX] at this
    linarith
  have hXsurj : Function.Surjective X := by
    intro t
    refine ⟨V t, hVmono.injective ?_⟩
    rw [hVX]
  have hXcont : Continuous X := hXmono.continuous_of_surjective hXsurj
  have hcd : HasDerivAt c (-(I0 / a * Real.exp (X v / a) + 1 / Rsh)) (X v) := by
    have h1 := ((hasDerivAt_id (X v)).div_const a).exp
    have h2 := (((h1.sub_const 1).const_mul I0).const_sub IL).sub ((hasDerivAt_id (X v)).div_const Rsh)
    refine h2.congr_deriv ?_
    simp only [id]
    field_simp
    ring
  have hVd : HasDerivAt V (1 + Rs * (I0 / a * Real.exp (X v / a) + 1 / Rsh)) (X v) := by
    refine ((hasDerivAt_id (X v)).sub (hcd.const_mul Rs)).congr_deriv ?_
    ring
  have hpos : 0 < 1 + Rs * (I0 / a * Real.exp (X v / a) + 1 / Rsh) := by positivity
  have hXd : HasDerivAt X (1 + Rs * (I0 / a * Real.exp (X v / a) + 1 / Rsh))⁻¹ v :=
    HasDerivAt.of_local_left_inverse hXcont.continuousAt hVd hpos.ne' (Filter.Eventually.of_forall hVX)
  have e : I = fun v => c (X v) := funext hc
  rw [e]
  refine (hcd.comp v hXd).congr_deriv ?_
  change _ = -(I0 / a * Real.exp ((v + c (X v) * Rs) / a) + 1 / Rsh) / (1 + Rs * (I0 / a * Real.exp ((v + c (X v) * Rs) / a) + 1 / Rsh))
  rw [← hc v]
  change _ = -(I0 / a * Real.exp (X v / a) + 1 / Rsh) / (1 + Rs * (I0 / a * Real.exp (X v / a) + 1 / Rsh))
  exact (div_eq_mul_inv _ _).symm

/-- The five coefficients of the co-content of a single diode curve. -/
def ccCoef (IL I0 Rs Rsh a isc : ℝ) : List ℝ :=
  let K := isc - IL - I0 - a / Rsh + isc * Rs / Rsh
  [K, a - K * Rs, -(Rs / Rsh), 1 / (2 * Rsh), Rs / 2 * (1 + Rs / Rsh)]

/-- The regressors `v, y, v y, v², y²` of the co-content. -/
def feat (v y : ℝ) : List ℝ := [v, y, v * y, v * v, y * y]

/-- Scalar product of two lists. -/
def dot (p q : List ℝ) : ℝ := (List.zipWith (· * ·) p q).sum

/-- **C145, closed form.**  The co-content of a single diode curve, the integral of `Isc - I` from zero voltage, is exactly
the quadratic in the voltage and in `y = Isc - I` that the method fits: its five coefficients are `ccCoef`. -/
theorem cocontent_closed_form {IL I0 Rs Rsh a : ℝ} {I : ℝ → ℝ} (hI0 : 0 ≤ I0) (hRs : 0 ≤ Rs) (hRsh : 0 < Rsh)
    (ha : 0 < a) (h : IsCurve IL I0 Rs Rsh a I) (V : ℝ) :
    ∫ v in (0 : ℝ)..V, (I 0 - I v) = dot (ccCoef IL I0 Rs Rsh a (I 0)) (feat V (I 0 - I V)) := by
  have hd : ∀ v ∈ Set.uIcc 0 V, HasDerivAt
      (fun v => dot (ccCoef IL I0 Rs Rsh a (I 0)) (feat v (I 0 - I v))) (I 0 - I v) v := by
    intro v _
    have hI := hasDerivAt_curve hI0 hRs hRsh ha h v
    have hc : I v = IL - I0 * (Real.exp ((v + I v * Rs) / a) - 1) - (v + I v * Rs) / Rsh := h v
    set E := Real.exp ((v + I v * Rs) / a) with hE
    have hpos : 0 < 1 + Rs * (I0 / a * E + 1 / Rsh) := by
      have : 0 < E := Real.exp_pos _
      positivity
    set d := -(I0 / a * E + 1 / Rsh) / (1 + Rs * (I0 / a * E + 1 / Rsh)) with hdd
    have hy : HasDerivAt (fun v => I 0 - I v) (-d) v := by
      refine (hI.const_sub (I 0)).congr_deriv rfl
    have hid := hasDerivAt_id v
    simp only [dot, ccCoef, feat, List.zipWith_cons_cons, List.zipWith_nil_right, List.sum_cons, List.sum_nil]
    refine ((hid.const_mul _).add ((hy.const_mul _).add (((hid.mul hy).const_mul _).add
      (((hid.mul hid).const_mul _).add (((hy.mul hy).const_mul _).add (hasDerivAt_const v (0 : ℝ))))))).congr_deriv ?_
    simp only [id]
    have hd1 : d * (1 + Rs * (I0 / a * E + 1 / Rsh)) = -(I0 / a * E + 1 / Rsh) := by
      rw [hdd, div_mul_cancel₀ _ hpos.ne']
    have hd2 : d * (a * Rsh + Rs * (I0 * E * Rsh + a)) = -(I0 * E * Rsh + a) := by
      field_simp at hd1
      linarith
    have hc2 : I0 * E * Rsh = (IL + I0 - I v) * Rsh - (v + I v * Rs) := by
      field_simp at hc
      linarith
    rw [hc2] at hd2
    field_simp
    linear_combination (-2) * hd2
  rw [intervalIntegral.integral_eq_sub_of_hasDerivAt hd ?_]
  · simp [dot, ccCoef, feat]
  · apply Continuous.intervalIntegrable
    have : Continuous I := continuous_iff_continuousAt.mpr
      fun v => (hasDerivAt_curve hI0 hRs hRsh ha h v).continuousAt
    fun_prop

private theorem demo_curve : IsCurve 10 1 0 1 1 (fun v => 10 - (Real.exp v - 1) - v) := by
  intro v; unfold OnCurve; simp
example := cocontent_closed_form (by norm_num) (by norm_num) (by norm_num) (by norm_num) demo_curve 5

/-! ## From the coefficients to the parameters -/

/-- **C145, parameter extraction.**  From the exact coefficients the exact series resistance, shunt resistance and ideality
factor are recovered, for every cell with `Rsh > 0`, `Rs ≥ 0` and `a = n Ns Vth`. -/
theorem params_exact (IL I0 Rs Rsh nn isc voc ns : ℝ) (hRsh : 0 < Rsh) (hRs : 0 ≤ Rs) (hns : ns ≠ 0) :
    let p := cocontentParams ((ccCoef IL I0 Rs Rsh (nn * ns) isc).map fin) (fin isc) (fin voc) (fin ns)
    p.rs = fin Rs ∧ p.rsh = fin Rsh ∧ p.nNsVth = fin nn := by
  have h1 : (1 + 16 * (1 / (2 * Rsh)) * (Rs / 2 * (1 + Rs / Rsh))) = (1 + 2 * (Rs / Rsh)) ^ 2 := by
    field_simp; ring
  have hs : Real.sqrt (1 + 16 * (1 / (2 * Rsh)) * (Rs / 2 * (1 + Rs / Rsh))) = 1 + 2 * (Rs / Rsh) := by
    rw [h1, Real.sqrt_sq (by positivity)]
  have h0 : 0 ≤ 1 + 16 * (1 / (2 * Rsh)) * (Rs / 2 * (1 + Rs / Rsh)) := by rw [h1]; positivity
  have h2 : (4 : ℝ) * (1 / (2 * Rsh)) ≠ 0 := by positivity
  have h3 : (4 : ℝ) * (1 / (2 * Rsh)) * ns ≠ 0 := mul_ne_zero h2 hns
  have h4 : 1 / (2 * Rsh) * 2 ≠ 0 := by positivity
  simp only [cocontentParams, ccCoef, List.map_cons, List.map_nil, List.getD_cons_zero, List.getD_cons_succ, ofNat_eq,
    one_eq, fin_mul, fin_add, sqrt_fin h0, hs, fin_sub, fin_div h2, fin_div h3, fin_div h4, fin_inj]
  refine ⟨?_, ?_, ?_⟩
  · field_simp; ring
  · field_simp
  · field_simp; ring

example := params_exact 9 1e-9 0.3 300 0.025 8.99 38 60 (by norm_num) (by norm_num) (by norm_num)

/-- **C145, the saturation current (finding).**  With the exact parameters the returned `io` is not `I0`: it is smaller, by
exactly `(IL + I0 - isc) exp (-voc / a)`. -/
theorem io_error (IL I0 Rs Rsh nn isc voc ns : ℝ) (hRsh : 0 < Rsh) (hRs : 0 ≤ Rs) (hns : ns ≠ 0) (hn : nn ≠ 0)
    (hoc : OnCurve IL I0 Rs Rsh (nn * ns) voc 0) :
    (cocontentParams ((ccCoef IL I0 Rs Rsh (nn * ns) isc).map fin) (fin isc) (fin voc) (fin ns)).io =
      fin (I0 - (IL + I0 - isc) * Real.exp (-(voc / (nn * ns)))) := by
  have hp := (params_exact IL I0 Rs Rsh nn isc voc ns hRsh hRs hns).2.2
  have e : (cocontentParams ((ccCoef IL I0 Rs Rsh (nn * ns) isc).map fin) (fin isc) (fin voc) (fin ns)).io =
      (fin isc - fin voc * (fin (1 / (2 * Rsh)) * 2)) / Fl.exp (fin voc /
        ((cocontentParams ((ccCoef IL I0 Rs Rsh (nn * ns) isc).map fin) (fin isc) (fin voc) (fin ns)).nNsVth * fin ns)) := rfl
  rw [e, hp]
  have hm : nn * ns ≠ 0 := mul_ne_zero hn hns
  rw [fin_mul nn, fin_div hm, exp_fin, ofNat_eq, fin_mul, fin_mul, fin_sub, fin_div (Real.exp_ne_zero _), fin_inj, Real.exp_neg]
  unfold OnCurve at hoc
  rw [zero_mul, add_zero] at hoc
  have := Real.exp_ne_zero (voc / (nn * ns))
  generalize Real.exp (voc / (nn * ns)) = E at *
  field_simp at hoc ⊢
  linear_combination (-1) * hoc

example := io_error (9 + (Real.exp 1 - 1)) 1 0 (1 / 9) 1 9 1 1 (by norm_num) (by norm_num) (by norm_num) (by norm_num)
  (by unfold OnCurve; norm_num)

/-- The returned light current, in terms of the returned `io`, `rs`, `rsh` and `n`. -/
private theorem iph_eq (beta : List Fl) (isc voc ns : Fl) :
    (cocontentParams beta isc voc ns).iph =
      isc - (cocontentParams beta isc voc ns).io + (cocontentParams beta isc voc ns).io *
        Fl.exp (isc / ((cocontentParams beta isc voc ns).nNsVth * ns)) +
        isc * (cocontentParams beta isc voc ns).rs * (beta.getD 3 nan * 2) := rfl

/-- **C145, the light current (finding).**  Line 358 evaluates the diode term at short circuit with `exp (isc / a)` where the single
diode equation has `exp (isc rs / a)`.  The returned `iph` differs from the one that puts `(0, isc)` on the curve of the
returned parameters by exactly `io (exp (isc / a) - exp (isc rs / a))`, so the returned curve passes
through the short circuit point if and only if `io = 0`, `isc = 0` or `rs = 1`. -/
theorem iph_misses_isc (beta : List ℝ) (isc voc ns : ℝ) (io rs rsh nn : ℝ)
    (hrsh : rsh ≠ 0) (hn : nn * ns ≠ 0) (hl : 3 < beta.length)
    (hio : (cocontentParams (beta.map fin) (fin isc) (fin voc) (fin ns)).io = fin io)
    (hrs : (cocontentParams (beta.map fin) (fin isc) (fin voc) (fin ns)).rs = fin rs)
    (hsh : (cocontentParams (beta.map fin) (fin isc) (fin voc) (fin ns)).rsh = fin rsh)
    (hnn : (cocontentParams (beta.map fin) (fin isc) (fin voc) (fin ns)).nNsVth = fin nn) :
    ∃ iph, (cocontentParams (beta.map fin) (fin isc) (fin voc) (fin ns)).iph = fin iph ∧
      (∀ IL, OnCurve IL io rs rsh (nn * ns) 0 isc →
        iph - IL = io * (Real.exp (isc / (nn * ns)) - Real.exp (isc * rs / (nn * ns)))) ∧
      (OnCurve iph io rs rsh (nn * ns) 0 isc ↔ io = 0 ∨ isc = 0 ∨ rs = 1) := by
  obtain ⟨b3, hb3⟩ : ∃ b3, (beta.map fin).getD 3 nan = fin b3 := by
    refine ⟨beta[3], ?_⟩
    simp [List.getD_eq_getElem?_getD, List.getElem?_eq_getElem hl]
  have hsh' : (cocontentParams (beta.map fin) (fin isc) (fin voc) (fin ns)).rsh = 1 / ((beta.map fin).getD 3 nan * 2) := rfl
  rw [hsh', hb3, ofNat_eq, fin_mul, one_eq] at hsh
  have hb : b3 * 2 ≠ 0 := by
    intro h0
    rw [h0, fin_div_zero, infSign_pos one_pos] at hsh
    exact absurd hsh (by simp)
  rw [fin_div hb, fin_inj] at hsh
  have hb' : b3 * 2 = 1 / rsh := by rw [← hsh]; simp
  refine ⟨isc - io + io * Real.exp (isc / (nn * ns)) + isc * rs * (1 / rsh), ?_, ?_, ?_⟩
  · rw [iph_eq, hio, hrs, hnn, hb3, ofNat_eq, fin_mul nn, fin_div hn, exp_fin, fin_mul b3]
    rw [show (b3 * OfNat.ofNat 2 : ℝ) = 1 / rsh from hb']
    simp only [fin_sub, fin_mul, fin_add]
  · intro IL h
    unfold OnCurve at h
    rw [zero_add] at h
    have : isc * rs / rsh = isc * rs * (1 / rsh) := by ring
    rw [this] at h
    linarith
  · unfold OnCurve
    rw [zero_add]
    have : isc * rs / rsh = isc * rs * (1 / rsh) := by ring
    rw [this]
    constructor
    · intro h
      by_cases h0 : io = 0
      · exact Or.inl h0
      right
      have h1 : io * (Real.exp (isc / (nn * ns)) - Real.exp (isc * rs / (nn * ns))) = 0 := by linarith
      have h2 : Real.exp (isc / (nn * ns)) = Real.exp (isc * rs / (nn * ns)) := by
        have := (mul_eq_zero.mp h1).resolve_left h0; linarith
      rw [Real.exp_eq_exp, div_left_inj' hn] at h2
      by_cases h3 : isc = 0
      · exact Or.inl h3
      · right
        have : isc * (rs - 1) = 0 := by linarith
        have := (mul_eq_zero.mp this).resolve_left h3
        linarith
    · rintro (h | h | h)
      · rw [h]; ring
      · rw [h]; simp
      · rw [h]; rw [mul_one]; ring

/-! ## The regression -/

/-- No conic passes through all the points. -/
def NoConic (n : ℕ) (v y : ℕ → ℝ) : Prop := ∀ A B C D E F : ℝ,
  (∀ k < n, A * v k ^ 2 + B * (v k * y k) + C * y k ^ 2 + D * v k + E * y k + F = 0) →
    A = 0 ∧ B = 0 ∧ C = 0 ∧ D = 0 ∧ E = 0 ∧ F = 0

/-- Sample mean and standard deviation. -/
def mean (n : ℕ) (x : ℕ → ℝ) : ℝ := ((List.range n).map x).sum / n
def std (n : ℕ) (x : ℕ → ℝ) : ℝ := Real.sqrt (((List.range n).map fun k => (x k - mean n x) ^ 2).sum / ((n : ℝ) - 1))

private theorem sum_map_fin (n : ℕ) (x : ℕ → ℝ) : Fl.sum ((List.range n).map fun k => fin (x k)) = fin ((List.range n).map x).sum := by
  rw [← Fl.sum_fin, List.map_map]; rfl

private theorem npMean_fin {n : ℕ} (hn : 2 ≤ n) (x : ℕ → ℝ) : npMean n (ser x) = fin (mean n x) := by
  unfold npMean mean
  have : (n : ℝ) ≠ 0 := by positivity
  rw [sum_map_fin, fin_div this]

private theorem n1 {n : ℕ} (hn : 2 ≤ n) : (0 : ℝ) < (n : ℝ) - 1 := by
  have : (2 : ℝ) ≤ n := by exact_mod_cast hn
  linarith

private theorem ssq_nonneg (n : ℕ) (x : ℕ → ℝ) : 0 ≤ ((List.range n).map fun k => (x k - mean n x) ^ 2).sum := by
  apply List.sum_nonneg
  intro a ha
  obtain ⟨k, _, rfl⟩ := List.mem_map.mp ha
  positivity

private theorem npStd1_fin {n : ℕ} (hn : 2 ≤ n) (x : ℕ → ℝ) : npStd1 n (ser x) = fin (std n x) := by
  unfold npStd1 std
  simp only [npMean_fin hn, fin_sub, fin_pow]
  rw [sum_map_fin, fin_div (n1 hn).ne', sqrt_fin (div_nonneg (ssq_nonneg n x) (n1 hn).le)]

private theorem npCov_fin {n : ℕ} (hn : 2 ≤ n) (x y : ℕ → ℝ) : ∃ c, npCov n (ser x) (ser y) = fin c := by
  unfold npCov
  simp only [npMean_fin hn, fin_sub, fin_mul]
  rw [sum_map_fin, fin_div (n1 hn).ne']
  exact ⟨_, rfl⟩

private theorem std_ne_zero {n : ℕ} (hn : 2 ≤ n) (x : ℕ → ℝ) (h : ¬ ∀ k < n, x k = mean n x) : std n x ≠ 0 := by
  intro h0
  apply h
  unfold std at h0
  rw [Real.sqrt_eq_zero (div_nonneg (ssq_nonneg n x) (n1 hn).le)] at h0
  have h1 : ((List.range n).map fun k => (x k - mean n x) ^ 2).sum = 0 := by
    rcases div_eq_zero_iff.mp h0 with h2 | h2
    · exact h2
    · exact absurd h2 (n1 hn).ne'
  intro k hk
  have := sum_sq_zero ((List.range n).map fun k => x k - mean n x) (by rw [List.map_map]; exact h1.le) _
    (List.mem_map.mpr ⟨k, List.mem_range.mpr hk, rfl⟩)
  linarith

/-- Standardised and rotated coordinates (`r = (p, q)` a unit vector). -/
private def S0 (p q mv sv mi si v y : ℝ) : ℝ := (v - mv) / sv * p + (y - mi) / si * (-q)
private def S1 (p q mv sv mi si v y : ℝ) : ℝ := (v - mv) / sv * q + (y - mi) / si * p

/-- The real matrix `mb · ma`, by rows. -/
private def M (p q mv sv mi si : ℝ) : List (List ℝ) :=
  [[p * sv, -q * si, p * (sv * mi) + -q * (si * mv), p * (2 * sv * mv), -q * (2 * si * mi)],
   [q * sv, p * si, q * (sv * mi) + p * (si * mv), q * (2 * sv * mv), p * (2 * si * mi)],
   [0, 0, (p * p + q * -q) * (sv * si), 2 * p * q * sv ^ 2, 2 * -q * p * si ^ 2],
   [0, 0, p * -q * (sv * si), p ^ 2 * sv ^ 2, (-q) ^ 2 * si ^ 2],
   [0, 0, q * p * (sv * si), q ^ 2 * sv ^ 2, p ^ 2 * si ^ 2]]

private theorem sum5 (a b c d e : ℝ) : Fl.sum [fin a, fin b, fin c, fin d, fin e] = fin (a + b + c + d + e) := by
  have := Fl.sum_fin [a, b, c, d, e]
  simp only [List.map_cons, List.map_nil, List.sum_cons, List.sum_nil] at this
  rw [this]; congr 1; ring

private theorem matrix_fin (p q mv sv mi si : ℝ) :
    matMul5 (matMb (fin p) (fin q) (fin (-q)) (fin p)) (matMa (fin sv) (fin si) (fin mv) (fin mi)) =
      (M p q mv sv mi si).map (·.map fin) := by
  have hr : List.range 5 = [0, 1, 2, 3, 4] := rfl
  simp only [matMul5, matMb, matMa, M, dotL, hr, List.map_cons, List.map_nil, List.getD_cons_zero, List.getD_cons_succ,
    List.zipWith_cons_cons, List.zipWith_nil_right, fin_mul, fin_add, fin_pow, ofNat_eq, zero_eq, sum5]
  simp only [List.cons.injEq, fin_inj, and_true]
  refine ⟨⟨?_, ?_, ?_, ?_, ?_⟩, ⟨?_, ?_, ?_, ?_, ?_⟩, ⟨?_, ?_, ?_, ?_, ?_⟩, ⟨?_, ?_, ?_, ?_, ?_⟩, ⟨?_, ?_, ?_, ?_, ?_⟩⟩ <;> ring

/-- Quadratic features in the rotated coordinates. -/
private def G (s t : ℝ) : List ℝ := [s, t, s * t, s * s, t * t, 1]

/-- The value of a quadratic in rotated coordinates equals that in the original ones, for all `v`, `y`. -/
private theorem change_coords {p q sv si : ℝ} (mv mi : ℝ) (hpq : p ^ 2 + q ^ 2 = 1) (hsv : sv ≠ 0) (hsi : si ≠ 0)
    (b0 b1 b2 b3 b4 v y : ℝ) :
    dot [b0, b1, b2, b3, b4] (feat v y) =
      dot ((M p q mv sv mi si).map fun r => dot r [b0, b1, b2, b3, b4])
        (feat (S0 p q mv sv mi si v y) (S1 p q mv sv mi si v y)) +
      (b0 * mv + b1 * mi + b2 * (mv * mi) + b3 * mv ^ 2 + b4 * mi ^ 2) := by
  set z1 := (v - mv) / sv with hz1
  set z2 := (y - mi) / si with hz2
  have hv : v = mv + sv * z1 := by rw [hz1]; field_simp; ring
  have hy : y = mi + si * z2 := by rw [hz2]; field_simp; ring
  have e0 : S0 p q mv sv mi si v y = z1 * p + z2 * (-q) := rfl
  have e1 : S1 p q mv sv mi si v y = z1 * q + z2 * p := rfl
  rw [e0, e1]
  clear e0 e1
  clear_value z1 z2
  subst hv hy
  simp only [dot, feat, M, List.map_cons, List.map_nil, List.zipWith_cons_cons, List.zipWith_nil_right, List.sum_cons,
    List.sum_nil]
  linear_combination (-(sv * (b0 + b2 * mi + 2 * b3 * mv) * z1 + si * (b1 + b2 * mv + 2 * b4 * mi) * z2) -
    (b3 * sv ^ 2 * z1 ^ 2 + b2 * sv * si * z1 * z2 + b4 * si ^ 2 * z2 ^ 2) * (1 + p ^ 2 + q ^ 2)) * hpq

/-- Every pair of rotated coordinates is attained. -/
private theorem coords_surj {p q sv si : ℝ} (mv mi : ℝ) (hpq : p ^ 2 + q ^ 2 = 1) (hsv : sv ≠ 0) (hsi : si ≠ 0) (s t : ℝ) :
    ∃ v y, S0 p q mv sv mi si v y = s ∧ S1 p q mv sv mi si v y = t := by
  refine ⟨mv + sv * (s * p + t * q), mi + si * (s * (-q) + t * p), ?_, ?_⟩
  · unfold S0
    rw [add_sub_cancel_left, add_sub_cancel_left, mul_div_cancel_left₀ _ hsv, mul_div_cancel_left₀ _ hsi]
    linear_combination s * hpq
  · unfold S1
    rw [add_sub_cancel_left, add_sub_cancel_left, mul_div_cancel_left₀ _ hsv, mul_div_cancel_left₀ _ hsi]
    linear_combination t * hpq

/-- A quadratic that vanishes identically has zero coefficients. -/
private theorem quad_zero {d0 d1 d2 d3 d4 d5 : ℝ} (h : ∀ s t : ℝ, d0 * s + d1 * t + d2 * (s * t) + d3 * (s * s) + d4 * (t * t) + d5 = 0) :
    d0 = 0 ∧ d1 = 0 ∧ d2 = 0 ∧ d3 = 0 ∧ d4 = 0 := by
  have h1 := h 1 0
  have h2 := h (-1) 0
  have h3 := h 0 1
  have h4 := h 0 (-1)
  have h5 := h 0 0
  have h6 := h 1 1
  refine ⟨?_, ?_, ?_, ?_, ?_⟩ <;> linarith

/-- A quadratic in rotated coordinates vanishing at points on no conic vanishes identically. -/
private theorem unique_gamma {n : ℕ} {v y : ℕ → ℝ} (hc : NoConic n v y) {p q sv si : ℝ} (mv mi : ℝ)
    (hpq : p ^ 2 + q ^ 2 = 1) (hsv : sv ≠ 0) (hsi : si ≠ 0) {d0 d1 d2 d3 d4 d5 : ℝ}
    (h : ∀ k < n, d0 * S0 p q mv sv mi si (v k) (y k) + d1 * S1 p q mv sv mi si (v k) (y k) +
      d2 * (S0 p q mv sv mi si (v k) (y k) * S1 p q mv sv mi si (v k) (y k)) +
      d3 * (S0 p q mv sv mi si (v k) (y k) * S0 p q mv sv mi si (v k) (y k)) +
      d4 * (S1 p q mv sv mi si (v k) (y k) * S1 p q mv sv mi si (v k) (y k)) + d5 = 0) :
    d0 = 0 ∧ d1 = 0 ∧ d2 = 0 ∧ d3 = 0 ∧ d4 = 0 := by
  -- the same quadratic in v and y
  have hex : ∃ A B C D E F : ℝ, ∀ v y : ℝ, d0 * S0 p q mv sv mi si v y + d1 * S1 p q mv sv mi si v y +
      d2 * (S0 p q mv sv mi si v y * S1 p q mv sv mi si v y) +
      d3 * (S0 p q mv sv mi si v y * S0 p q mv sv mi si v y) +
      d4 * (S1 p q mv sv mi si v y * S1 p q mv sv mi si v y) + d5 =
      A * v ^ 2 + B * (v * y) + C * y ^ 2 + D * v + E * y + F := by
    let a := p / sv
    let b := -q / si
    let c := q / sv
    let d := p / si
    let f := -(mv * a) - mi * b
    let g := -(mv * c) - mi * d
    refine ⟨d2 * a * c + d3 * a ^ 2 + d4 * c ^ 2, d2 * (a * d + b * c) + 2 * d3 * a * b + 2 * d4 * c * d,
      d2 * b * d + d3 * b ^ 2 + d4 * d ^ 2,
      d0 * a + d1 * c + d2 * (a * g + f * c) + 2 * d3 * a * f + 2 * d4 * c * g,
      d0 * b + d1 * d + d2 * (b * g + f * d) + 2 * d3 * b * f + 2 * d4 * d * g,
      d0 * f + d1 * g + d2 * f * g + d3 * f ^ 2 + d4 * g ^ 2 + d5, fun v y => ?_⟩
    have e0 : S0 p q mv sv mi si v y = a * v + b * y + f := by
      simp only [S0, a, b, f]; field_simp; ring
    have e1 : S1 p q mv sv mi si v y = c * v + d * y + g := by
      simp only [S1, c, d, g]; field_simp; ring
    rw [e0, e1]
    ring
  obtain ⟨A, B, C, D, E, F, hid⟩ := hex
  obtain ⟨rfl, rfl, rfl, rfl, rfl, rfl⟩ := hc A B C D E F (fun k hk => by rw [← hid]; exact h k hk)
  apply quad_zero (d5 := d5)
  intro s t
  obtain ⟨v', y', rfl, rfl⟩ := coords_surj mv mi hpq hsv hsi s t
  rw [hid]; ring

private theorem list5 (x : List ℝ) (h : x.length = 5) : ∃ a b c d e, x = [a, b, c, d, e] := by
  match x, h with
  | [a, b, c, d, e], _ => exact ⟨a, b, c, d, e, rfl⟩

private theorem list6 (x : List ℝ) (h : x.length = 6) : ∃ a b c d e f, x = [a, b, c, d, e, f] := by
  match x, h with
  | [a, b, c, d, e, f], _ => exact ⟨a, b, c, d, e, f, rfl⟩

/-- **C145, exact regression.**  If the co-content values are, up to a constant, a quadratic `b0 v + b1 y + b2 v y + b3 v² + b4 y²`
of the voltage and `y = isc - i`, and the data points lie on no common conic, the principal-components regression (standardise, rotate,
fit, transform back) returns exactly these coefficients. -/
theorem regression_exact {lib : LinLib} (hl : Good lib) {n : ℕ} (hn : 2 ≤ n) (v i : ℕ → ℝ) (isc : ℝ) (cci : ℕ → ℝ)
    (b0 b1 b2 b3 b4 c : ℝ) (hc : NoConic n v fun k => isc - i k)
    (hcc : ∀ k < n, cci k = dot [b0, b1, b2, b3, b4] (feat (v k) (isc - i k)) + c) :
    cocontentRegress lib n (ser v) (ser i) (fin isc) (ser cci) = [fin b0, fin b1, fin b2, fin b3, fin b4] := by
  set y : ℕ → ℝ := fun k => isc - i k with hy
  set mv := mean n v with hmv
  set mi := mean n y with hmi
  have hsv : std n v ≠ 0 := std_ne_zero hn v (by
    intro h
    have := hc 0 0 0 1 0 (-mv) (fun k hk => by rw [h k hk]; ring)
    exact absurd this.2.2.2.1 one_ne_zero)
  have hsi : std n y ≠ 0 := std_ne_zero hn y (by
    intro h
    have := hc 0 0 0 0 1 (-mi) (fun k hk => by rw [h k hk]; ring)
    exact absurd this.2.2.2.2.1 one_ne_zero)
  set sv := std n v with hsv'
  set si := std n y with hsi'
  unfold cocontentRegress
  have ey : ∀ k, fin isc - fin (i k) = fin (y k) := fun k => fin_sub _ _
  have ez1 : ∀ k, (fin (v k) - fin mv) / fin sv = fin ((v k - mv) / sv) := fun k => by rw [fin_sub, fin_div hsv]
  have ez2 : ∀ k, (fin (y k) - fin mi) / fin si = fin ((y k - mi) / si) := fun k => by rw [fin_sub, fin_div hsi]
  simp only [ser, ey]
  have m1 : npMean n (fun k => fin (v k)) = fin mv := npMean_fin hn v
  have m2 : npMean n (fun k => fin (y k)) = fin mi := npMean_fin hn y
  have m3 : npMean n (fun k => fin (cci k)) = fin (mean n cci) := npMean_fin hn cci
  have m4 : npStd1 n (fun k => fin (v k)) = fin sv := npStd1_fin hn v
  have m5 : npStd1 n (fun k => fin (y k)) = fin si := npStd1_fin hn y
  simp only [m1, m2, m3, m4, m5, ez1, ez2]
  obtain ⟨c1, hc1⟩ := npCov_fin hn (fun k => (v k - mv) / sv) (fun k => (v k - mv) / sv)
  obtain ⟨c2, hc2⟩ := npCov_fin hn (fun k => (v k - mv) / sv) (fun k => (y k - mi) / si)
  obtain ⟨c3, hc3⟩ := npCov_fin hn (fun k => (y k - mi) / si) (fun k => (y k - mi) / si)
  obtain ⟨p, q, hev, hpq⟩ := hl.eig c1 c2 c3
  rw [hc1, hc2, hc3, hev]
  have r10 : (0 : Fl) * fin p + -1 * fin q = fin (-q) := by
    simp only [zero_eq, one_eq, neg_fin, fin_mul, fin_add, fin_inj]; ring
  have r11 : (1 : Fl) * fin p + 0 * fin q = fin p := by
    simp only [zero_eq, one_eq, fin_mul, fin_add, fin_inj]; ring
  simp only [r10, r11, fin_mul, fin_add, fin_sub]
  -- the first least squares
  let eqs : List (List ℝ × ℝ) := (List.range n).map fun k =>
    (G (S0 p q mv sv mi si (v k) (y k)) (S1 p q mv sv mi si (v k) (y k)), cci k - mean n cci)
  have he : ((List.range n).map fun k =>
      ([fin ((v k - mv) / sv * p + (y k - mi) / si * -q), fin ((v k - mv) / sv * q + (y k - mi) / si * p),
        fin (((v k - mv) / sv * p + (y k - mi) / si * -q) * ((v k - mv) / sv * q + (y k - mi) / si * p)),
        fin (((v k - mv) / sv * p + (y k - mi) / si * -q) * ((v k - mv) / sv * p + (y k - mi) / si * -q)),
        fin (((v k - mv) / sv * q + (y k - mi) / si * p) * ((v k - mv) / sv * q + (y k - mi) / si * p)), 1],
        fin (cci k - mean n cci))) = liftEqs eqs := by
    simp only [eqs, liftEqs, List.map_map]
    rfl
  rw [he, matrix_fin]
  set gam := (M p q mv sv mi si).map fun r => dot r [b0, b1, b2, b3, b4] with hgam
  obtain ⟨g0, g1, g2, g3, g4, hg⟩ := list5 gam (by rw [hgam]; rfl)
  have hchange : ∀ V Y, dot [b0, b1, b2, b3, b4] (feat V Y) =
      dot [g0, g1, g2, g3, g4] (feat (S0 p q mv sv mi si V Y) (S1 p q mv sv mi si V Y)) +
      (b0 * mv + b1 * mi + b2 * (mv * mi) + b3 * mv ^ 2 + b4 * mi ^ 2) := by
    intro V Y
    rw [← hg]
    exact change_coords mv mi hpq hsv hsi b0 b1 b2 b3 b4 V Y
  set g5 := b0 * mv + b1 * mi + b2 * (mv * mi) + b3 * mv ^ 2 + b4 * mi ^ 2 + c - mean n cci with hg5
  obtain ⟨w, hw1, hw2, hw3⟩ := lstsq_solves hl 6 eqs (by
      simp [eqs]; omega) (by
      intro e hme; obtain ⟨k, _, rfl⟩ := List.mem_map.mp hme; rfl) [g0, g1, g2, g3, g4, g5] rfl (by
      intro e hme
      obtain ⟨k, hk, rfl⟩ := List.mem_map.mp hme
      have := hcc k (List.mem_range.mp hk)
      rw [hchange] at this
      simp only [dot, feat, List.zipWith_cons_cons, List.zipWith_nil_right, List.sum_cons, List.sum_nil] at this
      simp only [G, List.zipWith_cons_cons, List.zipWith_nil_right, List.sum_cons, List.sum_nil]
      rw [this, hg5]
      ring)
  obtain ⟨w0, w1, w2, w3, w4, w5, rfl⟩ := list6 w hw1
  have hu := unique_gamma hc mv mi hpq hsv hsi (d0 := w0 - g0) (d1 := w1 - g1) (d2 := w2 - g2) (d3 := w3 - g3)
    (d4 := w4 - g4) (d5 := w5 - g5) (by
      intro k hk
      have h1 := hw3 _ (List.mem_map.mpr ⟨k, List.mem_range.mpr hk, rfl⟩)
      have h2 := hcc k hk
      rw [hchange] at h2
      simp only [dot, feat, List.zipWith_cons_cons, List.zipWith_nil_right, List.sum_cons, List.sum_nil] at h2
      simp only [G, List.zipWith_cons_cons, List.zipWith_nil_right, List.sum_cons, List.sum_nil] at h1
      rw [h2] at h1
      rw [hg5]
      linarith)
  obtain ⟨u0, u1, u2, u3, u4⟩ := hu
  obtain rfl : w0 = g0 := by linarith
  obtain rfl : w1 = g1 := by linarith
  obtain rfl : w2 = g2 := by linarith
  obtain rfl : w3 = g3 := by linarith
  obtain rfl : w4 = g4 := by linarith
  rw [hw2]
  -- the second
  let eqs2 : List (List ℝ × ℝ) := (M p q mv sv mi si).zip gam
  have he2 : ((M p q mv sv mi si).map (·.map fin)).zip (([w0, w1, w2, w3, w4, w5].map fin).take 5) = liftEqs eqs2 := by
    simp only [eqs2, hg, M]
    rfl
  rw [he2]
  obtain ⟨x, hx1, hx2, hx3⟩ := lstsq_solves hl 5 eqs2 (by simp [eqs2, M, hg]) (by
      intro e hme
      have := (List.of_mem_zip hme).1
      simp only [M, List.mem_cons, List.not_mem_nil, or_false] at this
      rcases this with h | h | h | h | h <;> rw [h] <;> rfl) [b0, b1, b2, b3, b4] rfl (by
      intro e hme
      simp only [eqs2, hgam, List.zip_map_right, List.mem_map] at hme
      obtain ⟨⟨r, r'⟩, hr, rfl⟩ := hme
      have : r = r' := by
        have h' : ∀ (l : List (List ℝ)) (a b : List ℝ), (a, b) ∈ l.zip l → a = b := by
          intro l
          induction l with
          | nil => simp
          | cons t l ih =>
            intro a b hab
            simp only [List.zip_cons_cons, List.mem_cons, Prod.mk.injEq] at hab
            rcases hab with ⟨rfl, rfl⟩ | hab
            · rfl
            · exact ih a b hab
        exact h' _ _ _ hr
      subst this
      rfl)
  rw [hx2]
  obtain ⟨x0, x1, x2, x3, x4, rfl⟩ := list5 x hx1
  have hMx : (M p q mv sv mi si).map (fun r => dot r [x0, x1, x2, x3, x4]) = [w0, w1, w2, w3, w4] := by
    have hM : ∃ r0 r1 r2 r3 r4, M p q mv sv mi si = [r0, r1, r2, r3, r4] := ⟨_, _, _, _, _, rfl⟩
    obtain ⟨r0, r1, r2, r3, r4, hM⟩ := hM
    simp only [eqs2, hM, hg, List.zip_cons_cons, List.mem_cons, List.zip_nil_right, List.not_mem_nil, or_false] at hx3
    rw [hM]
    simp only [List.map_cons, List.map_nil, dot]
    rw [hx3 (r0, w0) (Or.inl rfl), hx3 (r1, w1) (Or.inr (Or.inl rfl)), hx3 (r2, w2) (Or.inr (Or.inr (Or.inl rfl))),
      hx3 (r3, w3) (Or.inr (Or.inr (Or.inr (Or.inl rfl)))), hx3 (r4, w4) (Or.inr (Or.inr (Or.inr (Or.inr rfl))))]
  have hid : ∀ V Y, dot [x0, x1, x2, x3, x4] (feat V Y) - (x0 * mv + x1 * mi + x2 * (mv * mi) + x3 * mv ^ 2 + x4 * mi ^ 2) =
      dot [b0, b1, b2, b3, b4] (feat V Y) - (b0 * mv + b1 * mi + b2 * (mv * mi) + b3 * mv ^ 2 + b4 * mi ^ 2) := by
    intro V Y
    rw [hchange V Y, change_coords (p := p) (q := q) (sv := sv) (si := si) mv mi hpq hsv hsi x0 x1 x2 x3 x4 V Y, hMx]
    ring
  have hz := quad_zero (d0 := x0 - b0) (d1 := x1 - b1) (d2 := x2 - b2) (d3 := x3 - b3) (d4 := x4 - b4)
    (d5 := (b0 * mv + b1 * mi + b2 * (mv * mi) + b3 * mv ^ 2 + b4 * mi ^ 2) -
      (x0 * mv + x1 * mi + x2 * (mv * mi) + x3 * mv ^ 2 + x4 * mi ^ 2)) (by
      intro V Y
      have := hid V Y
      simp only [dot, feat, List.zipWith_cons_cons, List.zipWith_nil_right, List.sum_cons, List.sum_nil] at this
      linarith)
  obtain ⟨z0, z1, z2, z3, z4⟩ := hz
  obtain rfl : x0 = b0 := by linarith
  obtain rfl : x1 = b1 := by linarith
  obtain rfl : x2 = b2 := by linarith
  obtain rfl : x3 = b3 := by linarith
  obtain rfl : x4 = b4 := by linarith
  rfl

/-- **C145, recovery.**  Let the data be points of a single diode curve, on no common conic, and the co-content values be the exact
integrals (up to a constant).  Then the regression and parameter extraction return the exact series resistance, shunt
resistance and ideality factor. -/
theorem recovers_cell {lib : LinLib} (hl : Good lib) {n : ℕ} (hn : 2 ≤ n) {IL I0 Rs Rsh nn ns : ℝ} {I : ℝ → ℝ}
    (hI0 : 0 ≤ I0) (hRs : 0 ≤ Rs) (hRsh : 0 < Rsh) (hnn : 0 < nn) (hns : 0 < ns)
    (h : IsCurve IL I0 Rs Rsh (nn * ns) I) (v cci : ℕ → ℝ) (voc c : ℝ) (hc : NoConic n v fun k => I 0 - I (v k))
    (hcc : ∀ k < n, cci k = (∫ x in (0 : ℝ)..v k, (I 0 - I x)) + c) :
    let p := cocontentParams (cocontentRegress lib n (ser v) (ser fun k => I (v k)) (fin (I 0)) (ser cci)) (fin (I 0)) (fin voc)
      (fin ns)
    p.rs = fin Rs ∧ p.rsh = fin Rsh ∧ p.nNsVth = fin nn := by
  have hK : ∃ b0 b1 b2 b3 b4, ccCoef IL I0 Rs Rsh (nn * ns) (I 0) = [b0, b1, b2, b3, b4] := ⟨_, _, _, _, _, rfl⟩
  obtain ⟨b0, b1, b2, b3, b4, hb⟩ := hK
  have := regression_exact hl hn v (fun k => I (v k)) (I 0) cci b0 b1 b2 b3 b4 c hc (fun k hk => by
    rw [hcc k hk, cocontent_closed_form hI0 hRs hRsh (mul_pos hnn hns) h, hb])
  intro p
  have hp : p = cocontentParams ((ccCoef IL I0 Rs Rsh (nn * ns) (I 0)).map fin) (fin (I 0)) (fin voc) (fin ns) := by
    simp only [p, this, hb]
    rfl
  rw [hp]
  exact params_exact IL I0 Rs Rsh nn (I 0) voc ns hRsh hRs hns.ne'

/-- The hypotheses of `recovers_cell` are met by the curve `i = 10 - (2 ^ v - 1) - v` (`Rs = 0`, `Rsh = I0 = 1`) sampled at
0, 1, …, 5 V. -/
example : IsCurve 10 1 0 1 (1 / Real.log 2) (fun v => 10 - ((2 : ℝ) ^ v - 1) - v) ∧
    NoConic 6 (fun k => (k : ℝ)) (fun k => (10 - ((2 : ℝ) ^ (0 : ℝ) - 1) - 0) - (10 - ((2 : ℝ) ^ (k : ℝ) - 1) - k)) := by
  constructor
  · intro v
    unfold OnCurve
    beta_reduce
    rw [Real.rpow_def_of_pos two_pos]
    simp only [mul_zero, add_zero, div_one, one_mul]
    congr 4
    field_simp
  · intro A B C D E F h
    have h0 := h 0 (by norm_num)
    have h1 := h 1 (by norm_num)
    have h2 := h 2 (by norm_num)
    have h3 := h 3 (by norm_num)
    have h4 := h 4 (by norm_num)
    have h5 := h 5 (by norm_num)
    simp only [Real.rpow_natCast, Real.rpow_zero] at h0 h1 h2 h3 h4 h5
    norm_num at h0 h1 h2 h3 h4 h5
    refine ⟨?_, ?_, ?_, ?_, ?_, ?_⟩ <;> linarith

end Pvlib.Props.Cocontent
