import Verif.Model.SingleDiode
import Verif.Props.Spec
import Mathlib.Analysis.SpecialFunctions.ExpDeriv
import Mathlib.Analysis.SpecialFunctions.Pow.Deriv

/-! # Properties C65, C66: `bishop88` evaluates the single diode equation, and its gradients -/

noncomputable section
open scoped Classical
open Real
namespace Pvlib.Props.SingleDiode
open Fl Pvlib.SingleDiode

/-! ### The specification: a cell in real numbers and the single diode equation -/

/-- A cell, in real numbers: light current, saturation current, series resistance, shunt *conductance*, thermal
voltage `n Ns Vth`, recombination parameter `D = d²/(μτ)` and built-in voltage `B`, breakdown fraction, voltage and
exponent. -/
structure Cell where
  (IL I0 Rs g a D B F Vbr m : ℝ)

/-- The recombination current at diode voltage `vd`. -/
def Cell.recomb (c : Cell) (vd : ℝ) : ℝ := if 0 < c.D then c.IL * c.D / (c.B - vd) else 0
/-- The breakdown (avalanche) current at diode voltage `vd`. -/
def Cell.avalanche (c : Cell) (vd : ℝ) : ℝ := c.F * vd * c.g * (1 - vd / c.Vbr) ^ (-c.m)
/-- The current of the single diode model at diode voltage `vd`. -/
def Cell.current (c : Cell) (vd : ℝ) : ℝ :=
  c.IL - c.I0 * (Real.exp (vd / c.a) - 1) - vd * c.g - c.recomb vd - c.avalanche vd
/-- The terminal voltage at diode voltage `vd`. -/
def Cell.voltage (c : Cell) (vd : ℝ) : ℝ := vd - c.current vd * c.Rs

/-- The single diode equation between terminal current and voltage; with recombination the diode voltage must stay
below the built-in voltage. -/
def Cell.Solves (c : Cell) (i v : ℝ) : Prop :=
  (0 < c.D → v + i * c.Rs < c.B) ∧
  i = c.IL - c.I0 * (Real.exp ((v + i * c.Rs) / c.a) - 1) - (v + i * c.Rs) * c.g
    - c.recomb (v + i * c.Rs) - c.avalanche (v + i * c.Rs)

/-- The arguments given to pvlib describe the cell (an infinite shunt resistance is conductance zero; `NsVbi` matters
only with recombination). -/
structure Matches (p : Params) (c : Cell) : Prop where
  IL : p.photocurrent = fin c.IL
  I0 : p.saturation_current = fin c.I0
  Rs : p.resistance_series = fin c.Rs
  shunt : (∃ r, p.resistance_shunt = fin r ∧ r ≠ 0 ∧ c.g = 1 / r) ∨ (p.resistance_shunt = pinf ∧ c.g = 0)
  a : p.nNsVth = fin c.a
  a_ne : c.a ≠ 0
  D : p.d2mutau = fin c.D
  B : 0 < c.D → p.NsVbi = fin c.B
  F : p.breakdown_factor = fin c.F
  Vbr : p.breakdown_voltage = fin c.Vbr
  Vbr_ne : c.Vbr ≠ 0
  m : p.breakdown_exp = fin c.m

theorem gSh_fin {p : Params} {c : Cell} (h : Matches p c) : gSh p = fin c.g := by
  unfold gSh
  rcases h.shunt with ⟨r, hr, hr0, hg⟩ | ⟨hr, hg⟩
  · rw [hr, hg, one_eq, fin_div hr0]
  · rw [hr, hg, one_eq, fin_div_pinf]

private theorem brkTerm_fin {p : Params} {c : Cell} (h : Matches p c) (vd : ℝ) :
    brkTerm (fin vd) p = fin (1 - vd / c.Vbr) := by
  simp only [brkTerm, h.Vbr, fin_div h.Vbr_ne, one_eq, fin_sub]

private theorem iRecomb_fin {p : Params} {c : Cell} (h : Matches p c) (vd : ℝ) (hB : 0 < c.D → vd ≠ c.B) :
    iRecomb (fin vd) p = fin (c.recomb vd) ∧ (0 < c.D → vRecomb (fin vd) p = fin (c.B - vd)) := by
  by_cases hD : 0 < c.D
  · have hne : c.B - vd ≠ 0 := sub_ne_zero.mpr (hB hD).symm
    have hv : vRecomb (fin vd) p = fin (c.B - vd) := by
      simp only [vRecomb, h.D, zero_eq, fin_lt, hD, npwhere_true, h.B hD, fin_sub]
    refine ⟨?_, fun _ => hv⟩
    simp only [iRecomb, h.D, zero_eq, fin_lt, hD, npwhere_true, hv, h.IL, fin_mul, fin_div hne, Cell.recomb, hD, if_true]
  · refine ⟨?_, fun h' => absurd h' hD⟩
    simp only [iRecomb, h.D, zero_eq, fin_lt, hD, npwhere_false, Cell.recomb, if_false]

private theorem iBreakdown_fin {p : Params} {c : Cell} (h : Matches p c) (vd : ℝ) (ht : 0 < 1 - vd / c.Vbr) :
    iBreakdown (fin vd) p = fin (c.avalanche vd) := by
  simp only [iBreakdown, brkTerm_fin h, gSh_fin h, h.F, h.m, neg_fin, rpow_fin_pos ht, fin_mul, Cell.avalanche]

/-- **C65**: at every diode voltage on the conducting side of the breakdown voltage, `bishop88` returns the current of
the single diode model, the terminal voltage and their product. -/
theorem bishop88_point {p : Params} {c : Cell} (h : Matches p c) (vd : ℝ) (ht : 0 < 1 - vd / c.Vbr)
    (hB : 0 < c.D → vd ≠ c.B) :
    bishop88 (fin vd) p = ⟨fin (c.current vd), fin (c.voltage vd), fin (c.current vd * c.voltage vd)⟩ := by
  have hi : p.photocurrent - p.saturation_current * expm1 (fin vd / p.nNsVth) - fin vd * gSh p - iRecomb (fin vd) p -
      iBreakdown (fin vd) p = fin (c.current vd) := by
    simp only [h.IL, h.I0, h.a, gSh_fin h, (iRecomb_fin h vd hB).1, iBreakdown_fin h vd ht, fin_div h.a_ne, expm1,
      fin_mul, fin_sub, Cell.current]
  simp only [bishop88]
  rw [hi]
  simp only [h.Rs, fin_mul, fin_sub, Cell.voltage]

/-- A concrete cell without breakdown current. -/
theorem demo_cell : Matches ⟨fin 6, fin 5e-10, fin 0.5, fin 300, fin 1.5, 0, pinf, 0, fin (-5.5), fin 3.28⟩
    ⟨6, 5e-10, 0.5, 1 / 300, 1.5, 0, 0, 0, -5.5, 3.28⟩ :=
  ⟨rfl, rfl, rfl, Or.inl ⟨300, rfl, by norm_num, rfl⟩, rfl, by norm_num, rfl, fun h => absurd h (by norm_num), rfl, rfl, by norm_num,
    rfl⟩

example := bishop88_point demo_cell 20 (by norm_num) (by norm_num)

/-- **C65**: the returned current and voltage satisfy the single diode equation, and the power is their product. -/
theorem bishop88_solves {p : Params} {c : Cell} (h : Matches p c) (vd : ℝ) (ht : 0 < 1 - vd / c.Vbr)
    (hB : 0 < c.D → vd < c.B) :
    ∃ i v, bishop88 (fin vd) p = ⟨fin i, fin v, fin (i * v)⟩ ∧ c.Solves i v ∧ v + i * c.Rs = vd := by
  refine ⟨_, _, bishop88_point h vd ht (fun hd => (hB hd).ne), ?_, by simp only [Cell.voltage]; ring⟩
  have e : c.voltage vd + c.current vd * c.Rs = vd := by simp only [Cell.voltage]; ring
  unfold Cell.Solves
  rw [e]
  exact ⟨hB, rfl⟩

example := bishop88_solves demo_cell 20 (by norm_num) (by norm_num)

/-- **C65**: every solution of the single diode equation is a point `bishop88` can return: the equation and the
curve traced by the diode voltage are the same set. -/
theorem solves_iff (c : Cell) (i v : ℝ) :
    c.Solves i v ↔ ∃ vd, (0 < c.D → vd < c.B) ∧ i = c.current vd ∧ v = c.voltage vd := by
  constructor
  · intro h
    refine ⟨v + i * c.Rs, h.1, h.2, ?_⟩
    have : c.current (v + i * c.Rs) = i := h.2.symm
    simp only [Cell.voltage, this]; ring
  · rintro ⟨vd, hB, rfl, rfl⟩
    have e : c.voltage vd + c.current vd * c.Rs = vd := by simp only [Cell.voltage]; ring
    unfold Cell.Solves
    rw [e]
    exact ⟨hB, rfl⟩

/-- **C65** (a limit of the code, kept visible): on the far side of the breakdown voltage every result is NaN, even
with `breakdown_factor = 0`, because the avalanche term is computed regardless. -/
theorem bishop88_beyond_breakdown {p : Params} {c : Cell} (h : Matches p c) (vd : ℝ) (ht : 1 - vd / c.Vbr < 0)
    (hm : ∀ n : ℤ, (n : ℝ) ≠ c.m) : bishop88 (fin vd) p = ⟨nan, nan, nan⟩ := by
  have hm' : ∀ n : ℤ, (n : ℝ) ≠ -c.m := by
    intro n hn
    apply hm (-n)
    push_cast; linarith
  have hb : iBreakdown (fin vd) p = nan := by
    simp only [iBreakdown, brkTerm_fin h, h.m, neg_fin, rpow_neg_base ht hm', mul_nan]
  simp only [bishop88, hb, sub_nan, nan_mul]

example := bishop88_beyond_breakdown demo_cell (-6) (by norm_num) (fun n h => by
  have h' : (n : ℝ) * 100 = 328 := by rw [h]; norm_num
  have : n * 100 = 328 := by exact_mod_cast h'
  omega)

/-- NaN diode voltages give NaN. -/
theorem bishop88_nan (p : Params) : bishop88 nan p = ⟨nan, nan, nan⟩ := by
  simp only [bishop88, nan_div, expm1, mul_nan, sub_nan, nan_sub, nan_mul]

/-! ### C66: gradients -/

/-- The derivative of the single-diode current with respect to the diode voltage. -/
def Cell.slope (c : Cell) (vd : ℝ) : ℝ :=
  -(c.I0 * Real.exp (vd / c.a) / c.a) - c.g - (if 0 < c.D then c.IL * c.D / (c.B - vd) ^ 2 else 0)
    - c.F * c.g * ((1 - vd / c.Vbr) ^ (-c.m) + vd * (-c.m) * (1 - vd / c.Vbr) ^ (-c.m - 1) * (-1 / c.Vbr))

private theorem hasDerivAt_exp (a I0 vd : ℝ) :
    HasDerivAt (fun x => I0 * (Real.exp (x / a) - 1)) (I0 * Real.exp (vd / a) / a) vd := by
  have h1 : HasDerivAt (fun x : ℝ => x / a) (1 / a) vd := (hasDerivAt_id vd).div_const a
  have h2 := (h1.exp.sub_const 1).const_mul I0
  refine (h2).congr_deriv ?_
  ring

private theorem hasDerivAt_recomb (c : Cell) (vd : ℝ) (hB : 0 < c.D → vd ≠ c.B) :
    HasDerivAt c.recomb (if 0 < c.D then c.IL * c.D / (c.B - vd) ^ 2 else 0) vd := by
  unfold Cell.recomb
  by_cases hD : 0 < c.D
  · simp only [hD, if_true]
    have hne : c.B - vd ≠ 0 := sub_ne_zero.mpr (hB hD).symm
    have h1 : HasDerivAt (fun x : ℝ => c.B - x) (-1) vd := by
      simpa using (hasDerivAt_id vd).const_sub c.B
    have h2 := (hasDerivAt_const vd (c.IL * c.D)).div h1 hne
    refine (h2).congr_deriv ?_
    ring
  · simp only [hD, if_false]
    exact hasDerivAt_const vd 0

private theorem hasDerivAt_pow (c : Cell) (vd : ℝ) (ht : 0 < 1 - vd / c.Vbr) :
    HasDerivAt (fun x => (1 - x / c.Vbr) ^ (-c.m)) ((-c.m) * (1 - vd / c.Vbr) ^ (-c.m - 1) * (-1 / c.Vbr)) vd := by
  have h1 : HasDerivAt (fun x : ℝ => 1 - x / c.Vbr) (-1 / c.Vbr) vd := by
    have := ((hasDerivAt_id vd).div_const c.Vbr).const_sub 1
    refine (this).congr_deriv ?_
    ring
  have h2 := h1.rpow_const (p := -c.m) (Or.inl ht.ne')
  refine (h2).congr_deriv ?_
  ring

private theorem hasDerivAt_avalanche (c : Cell) (vd : ℝ) (ht : 0 < 1 - vd / c.Vbr) :
    HasDerivAt c.avalanche
      (c.F * c.g * ((1 - vd / c.Vbr) ^ (-c.m) + vd * (-c.m) * (1 - vd / c.Vbr) ^ (-c.m - 1) * (-1 / c.Vbr))) vd := by
  have h1 : HasDerivAt (fun x : ℝ => c.F * x * c.g) (c.F * c.g) vd := by
    have := ((hasDerivAt_id vd).const_mul c.F).mul_const c.g
    simpa using this
  have h2 := h1.mul (hasDerivAt_pow c vd ht)
  unfold Cell.avalanche
  refine (h2).congr_deriv ?_
  ring

theorem hasDerivAt_current (c : Cell) (vd : ℝ) (ht : 0 < 1 - vd / c.Vbr) (hB : 0 < c.D → vd ≠ c.B) :
    HasDerivAt c.current (c.slope vd) vd := by
  have h1 := hasDerivAt_exp c.a c.I0 vd
  have h2 : HasDerivAt (fun x : ℝ => x * c.g) c.g vd := by simpa using (hasDerivAt_id vd).mul_const c.g
  have h3 := hasDerivAt_recomb c vd hB
  have h4 := hasDerivAt_avalanche c vd ht
  have := (((h1.const_sub c.IL).sub h2).sub h3).sub h4
  exact this

/-- What the code computes for `grad_i`. -/
private def codeSlope (c : Cell) (vd : ℝ) : ℝ :=
  -(c.I0 * Real.exp (vd / c.a) / c.a) - c.g - (if 0 < c.D then c.IL * c.D / (c.B - vd) ^ 2 else 0)
    - c.F * c.g * ((1 - vd / c.Vbr) ^ (-c.m) + vd * (-c.m) * (1 - vd / c.Vbr) ^ (-c.m - 1))

private theorem gradI_fin {p : Params} {c : Cell} (h : Matches p c) (vd : ℝ) (ht : 0 < 1 - vd / c.Vbr)
    (hB : 0 < c.D → vd ≠ c.B) : gradI (fin vd) p = fin (codeSlope c vd) := by
  have hr : npwhere (0 < p.d2mutau) (iRecomb (fin vd) p / vRecomb (fin vd) p) 0 =
      fin (if 0 < c.D then c.IL * c.D / (c.B - vd) ^ 2 else 0) := by
    by_cases hD : 0 < c.D
    · have hne : c.B - vd ≠ 0 := sub_ne_zero.mpr (hB hD).symm
      simp only [h.D, zero_eq, fin_lt, hD, npwhere_true, (iRecomb_fin h vd hB).1, (iRecomb_fin h vd hB).2 hD, fin_div hne,
        if_true, Cell.recomb]
      congr 1
      field_simp
    · simp only [h.D, zero_eq, fin_lt, hD, npwhere_false, if_false]
  simp only [gradI]
  rw [hr]
  simp only [h.I0, h.a, fin_div h.a_ne, exp_fin, fin_mul, brkTerm_fin h, h.m, neg_fin, rpow_fin_pos ht, one_eq, fin_sub,
    gSh_fin h, h.F, fin_add, codeSlope]

private theorem grads_fin {p : Params} {c : Cell} (h : Matches p c) (vd : ℝ) (ht : 0 < 1 - vd / c.Vbr)
    (hB : 0 < c.D → vd ≠ c.B) (hv : 1 - codeSlope c vd * c.Rs ≠ 0) :
    (bishop88Grads (fin vd) p).grad_i = fin (codeSlope c vd) ∧
    (bishop88Grads (fin vd) p).grad_v = fin (1 - codeSlope c vd * c.Rs) ∧
    (bishop88Grads (fin vd) p).grad = fin (codeSlope c vd / (1 - codeSlope c vd * c.Rs)) ∧
    (bishop88Grads (fin vd) p).grad_p =
      fin (c.voltage vd * (codeSlope c vd / (1 - codeSlope c vd * c.Rs)) + c.current vd) := by
  have hg := gradI_fin h vd ht hB
  have hp := bishop88_point h vd ht hB
  simp only [bishop88Grads, hg, hp, h.Rs, one_eq, fin_mul, fin_sub, fin_div hv, fin_add, and_self]

/-- **C66** (a defect of the code, kept visible): the returned `di/dvd` is the derivative of the returned current
exactly when there is no breakdown current to speak of or the breakdown voltage is -1 V; for the documented default
`breakdown_voltage = -5.5` the chain-rule factor `-1/breakdown_voltage` is missing. -/
theorem gradient_correct_iff {p : Params} {c : Cell} (h : Matches p c) (vd : ℝ) (ht : 0 < 1 - vd / c.Vbr)
    (hB : 0 < c.D → vd ≠ c.B) :
    ∃ s, (bishop88Grads (fin vd) p).grad_i = fin s ∧
      (HasDerivAt (fun x => c.current x) s vd ↔ c.F * c.g * vd * c.m = 0 ∨ c.Vbr = -1) := by
  refine ⟨codeSlope c vd, gradI_fin h vd ht hB, ?_⟩
  have hd := hasDerivAt_current c vd ht hB
  have hpw : (1 - vd / c.Vbr) ^ (-c.m - 1) ≠ 0 := (Real.rpow_pos_of_pos ht _).ne'
  have key : codeSlope c vd - c.slope vd =
      c.F * c.g * vd * c.m * ((1 - vd / c.Vbr) ^ (-c.m - 1) * (1 + 1 / c.Vbr)) := by
    simp only [codeSlope, Cell.slope]; ring
  have hiff : (1 + 1 / c.Vbr = 0) ↔ c.Vbr = -1 := by
    have := h.Vbr_ne
    constructor
    · intro e
      field_simp at e
      linarith
    · intro e; rw [e]; norm_num
  constructor
  · intro hs
    have := hs.unique hd
    rw [this, sub_self] at key
    rcases mul_eq_zero.mp key.symm with h1 | h1
    · exact Or.inl h1
    · rcases mul_eq_zero.mp h1 with h2 | h2
      · exact absurd h2 hpw
      · exact Or.inr (hiff.mp h2)
  · intro hs
    have : codeSlope c vd = c.slope vd := by
      rw [← sub_eq_zero, key]
      rcases hs with h1 | h1
      · rw [h1, zero_mul]
      · rw [hiff.mpr h1]; ring
    rw [this]; exact hd

example := gradient_correct_iff demo_cell 20 (by norm_num) (by norm_num)

private theorem codeSlope_eq {c : Cell} (hF : c.F = 0 ∨ c.Vbr = -1) (vd : ℝ) : codeSlope c vd = c.slope vd := by
  rcases hF with h | h
  · simp only [codeSlope, Cell.slope, h]; ring
  · simp only [codeSlope, Cell.slope, h]; ring

/-- Second derivative of the current. -/
def Cell.bend (c : Cell) (vd : ℝ) : ℝ :=
  -(c.I0 * Real.exp (vd / c.a) / c.a) / c.a - (if 0 < c.D then 2 * (c.IL * c.D) / (c.B - vd) ^ 3 else 0)
    - c.F * c.g * (2 * (-c.m) * (1 - vd / c.Vbr) ^ (-c.m - 1) * (-1 / c.Vbr)
      + vd * (-c.m) * (-c.m - 1) * (1 - vd / c.Vbr) ^ (-c.m - 2) * (-1 / c.Vbr) ^ 2)

private theorem hasDerivAt_slope (c : Cell) (vd : ℝ) (ht : 0 < 1 - vd / c.Vbr) (hB : 0 < c.D → vd ≠ c.B) :
    HasDerivAt c.slope (c.bend vd) vd := by
  have h1 : HasDerivAt (fun x : ℝ => c.I0 * Real.exp (x / c.a) / c.a) (c.I0 * Real.exp (vd / c.a) / c.a / c.a) vd := by
    have h1 : HasDerivAt (fun x : ℝ => x / c.a) (1 / c.a) vd := (hasDerivAt_id vd).div_const c.a
    have h2 := (h1.exp.const_mul c.I0).div_const c.a
    refine (h2).congr_deriv ?_
    ring
  have h3 : HasDerivAt (fun x => if 0 < c.D then c.IL * c.D / (c.B - x) ^ 2 else 0)
      (if 0 < c.D then 2 * (c.IL * c.D) / (c.B - vd) ^ 3 else 0) vd := by
    by_cases hD : 0 < c.D
    · simp only [hD, if_true]
      have hne : c.B - vd ≠ 0 := sub_ne_zero.mpr (hB hD).symm
      have h1 : HasDerivAt (fun x : ℝ => c.B - x) (-1) vd := by
        simpa using (hasDerivAt_id vd).const_sub c.B
      have h2 := (hasDerivAt_const vd (c.IL * c.D)).div (h1.pow 2) (pow_ne_zero 2 hne)
      refine (h2).congr_deriv ?_
      simp only [Pi.pow_apply]
      field_simp
      ring
    · simp only [hD, if_false]
      exact hasDerivAt_const vd 0
  have hb : HasDerivAt (fun x : ℝ => 1 - x / c.Vbr) (-1 / c.Vbr) vd := by
    have := ((hasDerivAt_id vd).div_const c.Vbr).const_sub 1
    refine (this).congr_deriv ?_
    ring
  have hq : HasDerivAt (fun x => (1 - x / c.Vbr) ^ (-c.m - 1))
      ((-c.m - 1) * (1 - vd / c.Vbr) ^ (-c.m - 2) * (-1 / c.Vbr)) vd := by
    have h2 := hb.rpow_const (p := -c.m - 1) (Or.inl ht.ne')
    refine (h2).congr_deriv ?_
    rw [show -c.m - 1 - 1 = -c.m - 2 by ring]
    ring
  have h4 : HasDerivAt (fun x => c.F * c.g * ((1 - x / c.Vbr) ^ (-c.m) + x * (-c.m) * (1 - x / c.Vbr) ^ (-c.m - 1) * (-1 / c.Vbr)))
      (c.F * c.g * (2 * (-c.m) * (1 - vd / c.Vbr) ^ (-c.m - 1) * (-1 / c.Vbr)
        + vd * (-c.m) * (-c.m - 1) * (1 - vd / c.Vbr) ^ (-c.m - 2) * (-1 / c.Vbr) ^ 2)) vd := by
    have h5 := ((hasDerivAt_id vd).mul_const (-c.m)).mul hq
    have h6 := ((hasDerivAt_pow c vd ht).add (h5.mul_const (-1 / c.Vbr))).const_mul (c.F * c.g)
    refine (h6).congr_deriv ?_
    simp only [id]
    ring
  have := ((h1.neg.sub_const c.g).sub h3).sub h4
  refine (this).congr_deriv ?_
  simp only [Cell.bend]; ring

/-- **C66**: without breakdown (`breakdown_factor = 0`, the default), or with a breakdown voltage of -1 V, the five returned
gradients are what their names say, at every diode voltage: `di/dvd`, `dv/dvd`, `di/dv` and `dp/dv` along the curve (derivatives with respect to the
diode voltage divided by `dv/dvd`), and `d(dp/dv)/dvd`. -/
theorem gradients_correct {p : Params} {c : Cell} (h : Matches p c) (hF : c.F = 0 ∨ c.Vbr = -1) (vd : ℝ) (ht : 0 < 1 - vd / c.Vbr)
    (hB : 0 < c.D → vd ≠ c.B) (hv : 1 - c.slope vd * c.Rs ≠ 0) :
    ∃ gi gv gp g2p, bishop88Grads (fin vd) p = ⟨fin gi, fin gv, fin (gi / gv), fin gp, fin g2p⟩ ∧
      HasDerivAt (fun x => c.current x) gi vd ∧ HasDerivAt (fun x => c.voltage x) gv vd ∧ gv ≠ 0 ∧
      HasDerivAt (fun x => c.current x * c.voltage x) (gp * gv) vd ∧
      HasDerivAt (fun x => c.voltage x * (c.slope x / (1 - c.slope x * c.Rs)) + c.current x) g2p vd ∧
      gp = c.voltage vd * (c.slope vd / (1 - c.slope vd * c.Rs)) + c.current vd := by
  have hcs := codeSlope_eq hF vd
  have hi := hasDerivAt_current c vd ht hB
  have hvd : HasDerivAt (fun x => c.voltage x) (1 - c.slope vd * c.Rs) vd := by
    exact (hasDerivAt_id vd).sub (hi.mul_const c.Rs)
  have hs := hasDerivAt_slope c vd ht hB
  obtain ⟨g1, g2, g3, g4⟩ := grads_fin h vd ht hB (by rw [hcs]; exact hv)
  rw [hcs] at g1 g2 g3 g4
  have hbend : grad2I (fin vd) p = fin (c.bend vd) := by
    have hr : npwhere (0 < p.d2mutau) (2 * npwhere (0 < p.d2mutau) (iRecomb (fin vd) p / vRecomb (fin vd) p) 0 /
        vRecomb (fin vd) p) 0 = fin (if 0 < c.D then 2 * (c.IL * c.D) / (c.B - vd) ^ 3 else 0) := by
      by_cases hD : 0 < c.D
      · have hne : c.B - vd ≠ 0 := sub_ne_zero.mpr (hB hD).symm
        simp only [h.D, zero_eq, fin_lt, hD, npwhere_true, (iRecomb_fin h vd hB).1, (iRecomb_fin h vd hB).2 hD,
          fin_div hne, if_true, Cell.recomb, ofNat_eq, fin_mul]
        congr 1
        field_simp
      · simp only [h.D, zero_eq, fin_lt, hD, npwhere_false, if_false]
    simp only [grad2I]
    rw [hr]
    simp only [h.I0, h.a, fin_div h.a_ne, exp_fin, fin_mul, brkTerm_fin h, h.m, neg_fin, rpow_fin_pos ht, one_eq,
      ofNat_eq, fin_sub, gSh_fin h, h.F, fin_add, Cell.bend]
    congr 1
    rcases hF with hF | hF
    · rw [hF]; ring
    · rw [hF]; ring
  set s := c.slope vd with hsdef
  set gv := 1 - s * c.Rs with hgv
  have hg5 : (bishop88Grads (fin vd) p).grad2p =
      fin (gv * (s / gv) + c.voltage vd * (c.bend vd / gv - s * (-c.bend vd * c.Rs) / gv ^ 2) + s) := by
    have hgI := gradI_fin h vd ht hB
    rw [hcs] at hgI
    have hp := bishop88_point h vd ht hB
    have hv2 : gv ^ 2 ≠ 0 := pow_ne_zero 2 hv
    simp only [bishop88Grads, hgI, hp, hbend, h.Rs, one_eq, fin_mul, fin_sub, neg_fin, fin_pow, ← hgv, fin_div hv,
      fin_div hv2, fin_add]
  refine ⟨s, gv, c.voltage vd * (s / gv) + c.current vd,
    gv * (s / gv) + c.voltage vd * (c.bend vd / gv - s * (-c.bend vd * c.Rs) / gv ^ 2) + s, ?_, hi, hvd, hv, ?_, ?_, rfl⟩
  · cases hh : bishop88Grads (fin vd) p with
    | mk a b c' d e =>
      rw [hh] at g1 g2 g3 g4 hg5
      simp only at g1 g2 g3 g4 hg5
      rw [g1, g2, g3, g4, hg5]
  · have := hi.mul hvd
    refine (this).congr_deriv ?_
    field_simp
  · have hgvd : HasDerivAt (fun x => 1 - c.slope x * c.Rs) (-c.bend vd * c.Rs) vd := by
      have := (hs.mul_const c.Rs).const_sub 1
      refine (this).congr_deriv ?_
      ring
    have hq := hs.div hgvd hv
    have := (hvd.mul hq).add hi
    refine (this).congr_deriv ?_
    simp only [Pi.div_apply, ← hsdef, ← hgv]
    field_simp

/-- The hypotheses are met by a realistic module: 6 A light current, 5e-10 A saturation current, 0.5 ohm series,
300 ohm shunt, `nNsVth` 1.5 V, pvlib's default breakdown parameters. -/
example : Matches ⟨fin 6, fin 5e-10, fin 0.5, fin 300, fin 1.5, 0, pinf, 0, fin (-5.5), fin 3.28⟩
      ⟨6, 5e-10, 0.5, 1 / 300, 1.5, 0, 0, 0, -5.5, 3.28⟩ ∧ (0 : ℝ) < 1 - 20 / (-5.5) := by
  refine ⟨⟨rfl, rfl, rfl, Or.inl ⟨300, rfl, by norm_num, rfl⟩, rfl, by norm_num, rfl, fun h => ?_, rfl, rfl,
    by norm_num, rfl⟩, by norm_num⟩
  simp at h

/-- With the default breakdown voltage and a non-zero breakdown factor the returned gradient is wrong. -/
example : ¬ (((0.002 : ℝ) * (1 / 300) * (-3) * 3.28 = 0) ∨ (-5.5 : ℝ) = -1) := by norm_num

end Pvlib.Props.SingleDiode
end
