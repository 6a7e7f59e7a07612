import Verif.Model.SdmSandia
import Verif.Props.LambertW
import Verif.Props.Cocontent
import Mathlib.Analysis.Complex.ExponentialBounds

/-! # Property C146: the update steps of the Sandia single-diode-model fits

Each step changes one parameter of one IV curve so that one measured point lies on the curve:
`rs` the maximum power point, `iph` the short circuit point, `io` the open circuit point, and `rsh` makes the measured
maximum power point a stationary point of the power. -/

noncomputable section
open scoped Classical
open Real
namespace Pvlib.Props.SdmSteps
open Fl Pvlib.Sdm Pvlib.SingleDiode Pvlib.PvFunctions Pvlib.Props.LambertW Pvlib.Props.SandiaSimple Pvlib.Props.Cocontent

/-- The Lambert W routines compute what they promise. -/
structure GoodNum (num : Numerics) : Prop where
  W : IsLambertW num.W
  LW : IsLogLambertW num.LW

/-! ### The photocurrent meets the short circuit point -/

/-- **C146, photocurrent.**  For all finite `isc`, `io`, `rs`, a non-zero shunt resistance and thermal voltage, the returned
photocurrent puts `(0, isc)` on the curve, and is the only one that does. -/
theorem iph_meets_isc (isc io rs rsh a : ℝ) (hr : rsh ≠ 0) (ha : a ≠ 0) :
    ∃ iph, iphFormula (fin isc) (fin io) (fin rs) (fin rsh) (fin a) = fin iph ∧
      ∀ x, OnCurve x io rs rsh a 0 isc ↔ x = iph := by
  refine ⟨isc + io * (Real.exp (rs * isc / a) - 1) + isc * rs / rsh, ?_, fun x => ?_⟩
  · simp only [iphFormula, fin_mul, fin_div ha, fin_div hr, expm1, fin_add]
  · unfold OnCurve
    rw [zero_add, mul_comm rs isc]
    constructor <;> intro h <;> linarith

example := iph_meets_isc 8 1e-9 0.3 300 1.8 (by norm_num) (by norm_num)

/-! ### The series resistance meets the maximum power point -/

private theorem phi_algebra {iph io imp rsh a w : ℝ} (ha : 0 < a) (hI : 0 < io) (hr : 0 < rsh)
    (hw : w * Real.exp w = rsh * io / a * Real.exp (rsh * (iph + io - imp) / a)) :
    io * Real.exp (((iph + io - imp) * rsh - a * w) / a) = a * w / rsh := by
  have e : ((iph + io - imp) * rsh - a * w) / a = rsh * (iph + io - imp) / a - w := by field_simp
  rw [e, Real.exp_sub]
  have hE := (Real.exp_pos w).ne'
  rw [mul_div_assoc', div_eq_div_iff hE hr.ne']
  have : a * (w * Real.exp w) = rsh * io * Real.exp (rsh * (iph + io - imp) / a) := by rw [hw]; field_simp
  linarith

private theorem phi_value {num : Numerics} (hn : GoodNum num) {imp iph io rsh a : ℝ} (ha : 0 < a) (hI : 0 < io)
    (hr : 0 < rsh) (hov : ¬ num.ovf (phiArg (fin imp) (fin iph) (fin io) (fin rsh) (fin a))) :
    ∃ w, 0 < w ∧ calcPhi num (fin imp) (fin iph) (fin io) (fin rsh) (fin a) = fin w ∧
      w * Real.exp w = rsh * io / a * Real.exp (rsh * (iph + io - imp) / a) := by
  have hp : 0 < rsh * io / a * Real.exp (rsh * (iph + io - imp) / a) := by positivity
  have harg : phiArg (fin imp) (fin iph) (fin io) (fin rsh) (fin a) =
      fin (rsh * io / a * Real.exp (rsh * (iph + io - imp) / a)) := by
    simp only [phiArg, npwhere, zero_eq, eqv_fin, ha.ne', if_false, fin_mul, fin_add, fin_sub, fin_div ha.ne', exp_fin]
  obtain ⟨w, hw0, hWw, hw⟩ := hn.W _ hp.le
  refine ⟨w, ?_, ?_, hw⟩
  · rcases hw0.lt_or_eq with h | h
    · exact h
    · rw [← h, zero_mul] at hw; exact absurd hw hp.ne
  · rw [harg] at hov
    simp only [calcPhi, harg, if_neg hov, npwhere, zero_eq, fin_lt, hp, if_true, hWw]

private theorem onCurve_mp_iff {iph io imp vmp rsh a w : ℝ} (ha : 0 < a) (hI : 0 < io) (hr : 0 < rsh) (hi : imp ≠ 0)
    (hw : w * Real.exp w = rsh * io / a * Real.exp (rsh * (iph + io - imp) / a)) (rs : ℝ) :
    OnCurve iph io rs rsh a vmp imp ↔ rs = (iph + io - imp) * rsh / imp - a * w / imp - vmp / imp := by
  have key := phi_algebra ha hI hr hw
  have hx0 : ∀ rs, (rs = (iph + io - imp) * rsh / imp - a * w / imp - vmp / imp ↔
      vmp + imp * rs = (iph + io - imp) * rsh - a * w) := by
    intro rs
    rw [← sub_div, ← sub_div, eq_div_iff hi]
    constructor <;> intro h <;> linarith
  rw [hx0]
  unfold OnCurve
  constructor
  · intro h
    by_contra hne
    have hmono : ∀ x y : ℝ, x < y → io * Real.exp (x / a) + x / rsh < io * Real.exp (y / a) + y / rsh := by
      intro x y hxy
      have h1 : Real.exp (x / a) < Real.exp (y / a) := Real.exp_lt_exp.mpr (div_lt_div_of_pos_right hxy ha)
      have h2 : x / rsh < y / rsh := div_lt_div_of_pos_right hxy hr
      nlinarith
    have hy : io * Real.exp (((iph + io - imp) * rsh - a * w) / a) + ((iph + io - imp) * rsh - a * w) / rsh =
        iph + io - imp := by
      rw [key]; field_simp; ring
    rcases lt_or_gt_of_ne hne with hlt | hlt
    · have := hmono _ _ hlt; linarith
    · have := hmono _ _ hlt; linarith
  · intro h
    rw [h, mul_sub, mul_one, key]
    field_simp
    ring

/-- **C146, series resistance.**  For every curve with positive `io`, `rsh` and thermal voltage and a non-zero `imp`, as long
as the Lambert W argument does not overflow, the returned series resistance puts the measured maximum power point
`(vmp, imp)` on the curve, and is the only one that does. -/
theorem rs_meets_mpp {num : Numerics} (hn : GoodNum num) (vmp imp iph io rsh a : ℝ) (ha : 0 < a) (hI : 0 < io)
    (hr : 0 < rsh) (hi : imp ≠ 0) (hov : ¬ num.ovf (phiArg (fin imp) (fin iph) (fin io) (fin rsh) (fin a))) :
    ∃ rs, rsFormula num (fin vmp) (fin imp) (fin iph) (fin io) (fin rsh) (fin a) = fin rs ∧
      ∀ x, OnCurve iph io x rsh a vmp imp ↔ x = rs := by
  obtain ⟨w, -, hphi, hw⟩ := phi_value hn ha hI hr hov
  refine ⟨_, ?_, onCurve_mp_iff ha hI hr hi hw⟩
  simp only [rsFormula, hphi, fin_mul, fin_add, fin_sub, fin_div hi]

example {num : Numerics} (hn : GoodNum num) := rs_meets_mpp (num := { num with ovf := fun _ => False }) ⟨hn.W, hn.LW⟩ 30 7.5 8 1e-9 300 1.8
  (by norm_num) (by norm_num) (by norm_num) (by norm_num) not_false

/-! ### The shunt resistance: a fixed point is a stationary point of the power -/

/-- **C146, shunt resistance.**  For every curve through `(vmp, imp)` (the curve `I` is any function that satisfies the
single diode equation), a shunt resistance is left unchanged by an update pass exactly when the power `v I(v)` is stationary
at `vmp`. -/
theorem rsh_fixed_iff {num : Numerics} (hn : GoodNum num) (vmp imp iph io rs rsh a : ℝ) (ha : 0 < a) (hI : 0 < io)
    (hr : 0 < rsh) (hi : imp ≠ 0) (hrs : 0 ≤ rs)
    (hov : ¬ num.ovf (phiArg (fin imp) (fin iph) (fin io) (fin rsh) (fin a))) {I : ℝ → ℝ} (hc : IsCurve iph io rs rsh a I)
    (hmp : I vmp = imp) :
    rshStep num (fin vmp) (fin imp) (fin iph) (fin io) (fin a) (fin rsh) = fin rsh ↔
      HasDerivAt (fun v => v * I v) 0 vmp := by
  obtain ⟨z, hz, hphi, hw⟩ := phi_value hn ha hI hr hov
  have hcv : OnCurve iph io rs rsh a vmp imp := by have := hc vmp; rwa [hmp] at this
  have hrsv := (onCurve_mp_iff ha hI hr hi hw rs).mp hcv
  have hx : vmp + imp * rs = (iph + io - imp) * rsh - a * z := by
    rw [← sub_div, ← sub_div, eq_div_iff hi] at hrsv
    linarith
  have hd := hasDerivAt_curve hI.le hrs hr ha hc vmp
  rw [hmp, hx] at hd
  have hg : io / a * Real.exp (((iph + io - imp) * rsh - a * z) / a) + 1 / rsh = (1 + z) / rsh := by
    have := phi_algebra ha hI hr hw
    have e : io / a * Real.exp (((iph + io - imp) * rsh - a * z) / a) = z / rsh := by
      rw [div_mul_eq_mul_div, this]; field_simp
    rw [e]; ring
  rw [hg] at hd
  have hP : HasDerivAt (fun v => v * I v) (1 * I vmp + vmp * (-((1 + z) / rsh) / (1 + rs * ((1 + z) / rsh)))) vmp :=
    (hasDerivAt_id vmp).mul hd
  rw [hmp] at hP
  have hden : 0 < 1 + rs * ((1 + z) / rsh) := by positivity
  have hstep : rshStep num (fin vmp) (fin imp) (fin iph) (fin io) (fin a) (fin rsh) =
      fin ((1 + z) / z * ((iph + io) * rsh / imp - a * z / imp - 2 * vmp / imp)) := by
    simp only [rshStep, hphi, one_eq, ofNat_eq, fin_add, fin_mul, fin_div hi, fin_sub, fin_div hz.ne']
  have hdz : (1 * imp + vmp * (-((1 + z) / rsh) / (1 + rs * ((1 + z) / rsh))) = 0 ↔
      imp * (rsh + rs * (1 + z)) = vmp * (1 + z)) := by
    have e : 1 * imp + vmp * (-((1 + z) / rsh) / (1 + rs * ((1 + z) / rsh))) =
        (imp * (rsh + rs * (1 + z)) - vmp * (1 + z)) / (rsh + rs * (1 + z)) := by
      have h1 : rsh + rs * (1 + z) ≠ 0 := by positivity
      have h2 : 1 + rs * ((1 + z) / rsh) = (rsh + rs * (1 + z)) / rsh := by field_simp
      rw [h2]
      field_simp
      ring
    have h1 : rsh + rs * (1 + z) ≠ 0 := by positivity
    rw [e, div_eq_zero_iff, or_iff_left h1, sub_eq_zero]
  have hfix : ((1 + z) / z * ((iph + io) * rsh / imp - a * z / imp - 2 * vmp / imp) = rsh ↔
      imp * (rsh + rs * (1 + z)) = vmp * (1 + z)) := by
    have hz1 : (1 + z) ≠ 0 := by positivity
    have e : (1 + z) / z * ((iph + io) * rsh / imp - a * z / imp - 2 * vmp / imp) =
        (1 + z) * ((iph + io) * rsh - a * z - 2 * vmp) / (z * imp) := by field_simp
    rw [e, div_eq_iff (mul_ne_zero hz.ne' hi)]
    have hx' : (iph + io) * rsh - a * z = vmp + imp * rs + imp * rsh := by linarith
    rw [show (iph + io) * rsh - a * z - 2 * vmp = imp * rs + imp * rsh - vmp by linarith]
    constructor <;> intro h <;> nlinarith
  rw [hstep, fin_inj, hfix, ← hdz]
  constructor
  · intro h; rwa [h] at hP
  · intro h; exact hP.unique h

/-- **C146, shunt resistance, the whole update.**  If the power is stationary at `vmp` on the curve with the current shunt resistance, the
update - all its passes - leaves the resistance as it is. -/
theorem rsh_update_stationary {num : Numerics} (hn : GoodNum num) (vmp imp iph io rs rsh a : ℝ) (ha : 0 < a) (hI : 0 < io)
    (hr : 0 < rsh) (hi : imp ≠ 0) (hrs : 0 ≤ rs)
    (hov : ¬ num.ovf (phiArg (fin imp) (fin iph) (fin io) (fin rsh) (fin a))) {I : ℝ → ℝ} (hc : IsCurve iph io rs rsh a I)
    (hmp : I vmp = imp) (hst : HasDerivAt (fun v => v * I v) 0 vmp) :
    updateRsh num (fin vmp) (fin imp) (fin iph) (fin io) (fin rsh) (fin a) = fin rsh :=
  Function.iterate_fixed ((rsh_fixed_iff hn vmp imp iph io rs rsh a ha hI hr hi hrs hov hc hmp).2 hst) 500

/-- **C146, shunt resistance, the passes.**  The update makes 500 passes, each of which replaces the resistance by the formula of the
Sandia report (`phi` being `calcPhi` at the current resistance). -/
theorem rsh_update_passes (num : Numerics) (vmp imp iph io rsh a : Fl) :
    ∃ x : ℕ → Fl, x 0 = rsh ∧ updateRsh num vmp imp iph io rsh a = x 500 ∧
      ∀ i, x (i + 1) = (1 + calcPhi num imp iph io (x i) a) / calcPhi num imp iph io (x i) a *
        ((iph + io) * x i / imp - a * calcPhi num imp iph io (x i) a / imp - 2 * vmp / imp) := by
  refine ⟨fun i => (rshStep num vmp imp iph io a)^[i] rsh, rfl, rfl, fun i => ?_⟩
  dsimp only
  rw [Function.iterate_succ_apply']
  rfl

theorem demo_curve : IsCurve 10 1 0 1 (1 / Real.log 2) (fun v => 10 - ((2 : ℝ) ^ v - 1) - v) := by
  intro v
  unfold OnCurve
  beta_reduce
  rw [Real.rpow_def_of_pos two_pos]
  simp only [mul_zero, add_zero, div_one, one_mul]
  congr 4
  field_simp

example {num : Numerics} (hn : GoodNum num) := rsh_fixed_iff (num := { num with ovf := fun _ => False }) ⟨hn.W, hn.LW⟩ 2 5 10 1 0 1
  (1 / Real.log 2) (by positivity) (by norm_num) (by norm_num) (by norm_num) (by norm_num) not_false demo_curve (by norm_num)

/-! ### The saturation current meets the open circuit voltage -/

/-- The open circuit voltage of a curve. -/
def IsVoc (iph io rs rsh a p : ℝ) : Prop := OnCurve iph io rs rsh a p 0

private theorem voc_value {num : Numerics} (hn : GoodNum num) {iph io rs rsh a : ℝ} (hL : 0 ≤ iph) (hI : 0 < io) (hrs : 0 ≤ rs)
    (hr : 0 < rsh) (ha : 0 < a) :
    ∃ p, lambertwVFromI num.W num.LW num.ovf 0 (fin iph) (fin io) (fin rs) (fin rsh) (fin a) = fin p ∧
      ∀ q, IsVoc iph io rs rsh a q ↔ q = p := by
  have hs : Sane iph io rs (1 / rsh) a := ⟨hL, hI, hrs, by positivity, ha⟩
  have hc : Conductance (fin rsh) (1 / rsh) := Or.inl ⟨rsh, rfl, hr.ne', rfl⟩
  obtain ⟨p, hp, hd⟩ := vFromI_solves (ovf := num.ovf) hs hc (by positivity) hn.W hn.LW 0
  have hco : ∀ q, IsVoc iph io rs rsh a q ↔ Diode iph io rs (1 / rsh) a 0 q := by
    intro q; unfold IsVoc OnCurve Diode; rw [mul_one_div]
  refine ⟨p, hp, fun q => ?_⟩
  rw [hco]
  exact ⟨fun h => (diode_unique hs h hd).2.1 rfl, fun h => h ▸ hd⟩

/-- **C146, saturation current.**  One update pass multiplies `io` by `(2a + d) / (2a - d)`, where `d` is the difference of
the curve's open circuit voltage `p` from the measured one; so it leaves `io` unchanged exactly when `(voc, 0)` lies on the
curve, raises it when the curve's `Voc` is too high, lowers it when too low, by less than `2a`; and outside that range the
result is not a positive number, so the curve is dropped by the filter. -/
theorem io_step {num : Numerics} (hn : GoodNum num) (voc iph io rs rsh a : ℝ) (hL : 0 ≤ iph) (hI : 0 < io) (hrs : 0 ≤ rs)
    (hr : 0 < rsh) (ha : 0 < a) (p : ℝ) (hp : IsVoc iph io rs rsh a p) :
    (p - voc ≠ 2 * a → ioStep num (fin voc) (fin iph) (fin rs) (fin rsh) (fin a) (fin io) =
        fin (io * ((2 * a + (p - voc)) / (2 * a - (p - voc))))) ∧
    (ioStep num (fin voc) (fin iph) (fin rs) (fin rsh) (fin a) (fin io) = fin io ↔ IsVoc iph io rs rsh a voc) ∧
    (voc < p → p < voc + 2 * a →
      ∃ x, ioStep num (fin voc) (fin iph) (fin rs) (fin rsh) (fin a) (fin io) = fin x ∧ io < x) ∧
    (p < voc → voc - 2 * a < p →
      ∃ x, ioStep num (fin voc) (fin iph) (fin rs) (fin rsh) (fin a) (fin io) = fin x ∧ 0 < x ∧ x < io) ∧
    (2 * a < |p - voc| → ∃ x, ioStep num (fin voc) (fin iph) (fin rs) (fin rsh) (fin a) (fin io) = fin x ∧ x < 0) ∧
    (p - voc = 2 * a → ioStep num (fin voc) (fin iph) (fin rs) (fin rsh) (fin a) (fin io) = pinf) := by
  obtain ⟨p', hv, hu⟩ := voc_value hn hL hI hrs hr ha
  obtain rfl := (hu p).mp hp
  have hval : p - voc ≠ 2 * a → ioStep num (fin voc) (fin iph) (fin rs) (fin rsh) (fin a) (fin io) =
      fin (io * ((2 * a + (p - voc)) / (2 * a - (p - voc)))) := by
    intro hne
    have h0 : 2 * a - (p - voc) ≠ 0 := fun h => hne (by linarith)
    simp only [ioStep, hv, ofNat_eq, one_eq, fin_sub, fin_mul, Nat.cast_ofNat, fin_div h0, fin_add, fin_inj]
    rw [one_add_div h0]
    ring
  have hinf : p - voc = 2 * a → ioStep num (fin voc) (fin iph) (fin rs) (fin rsh) (fin a) (fin io) = pinf := by
    intro h
    simp only [ioStep, hv, ofNat_eq, one_eq, fin_sub, fin_mul, Nat.cast_ofNat, h, sub_self]
    have : fin (2 * (2 * a)) / fin 0 = pinf := by
      rw [show (fin (2 * (2 * a)) / fin 0 : Fl) = infSign (2 * (2 * a)) from by
        first | exact fin_div_zero _ | simp [fin_div_zero]]
      exact infSign_pos (by positivity)
    rw [this]
    simp [fin_mul_pinf, infSign_pos hI]
  refine ⟨hval, ?_, ?_, ?_, ?_, hinf⟩
  · rw [hu voc]
    by_cases hne : p - voc = 2 * a
    · rw [hinf hne]
      constructor
      · intro h; cases h
      · intro h; linarith
    · rw [hval hne, fin_inj]
      have h0 : 2 * a - (p - voc) ≠ 0 := fun h => hne (by linarith)
      rw [mul_div_assoc', div_eq_iff h0]
      constructor
      · intro h
        have := mul_left_cancel₀ hI.ne' h
        linarith
      · intro h; rw [h]; ring
  · intro h1 h2
    refine ⟨_, hval (by linarith), ?_⟩
    have h0 : 0 < 2 * a - (p - voc) := by linarith
    rw [lt_mul_iff_one_lt_right hI, lt_div_iff₀ h0]
    linarith
  · intro h1 h2
    have h0 : 0 < 2 * a - (p - voc) := by linarith
    refine ⟨_, hval (by linarith), ?_, ?_⟩
    · have : 0 < 2 * a + (p - voc) := by linarith
      positivity
    · rw [mul_lt_iff_lt_one_right hI, div_lt_iff₀ h0]
      linarith
  · intro h
    rcases lt_abs.mp h with h | h
    · refine ⟨_, hval (by linarith), ?_⟩
      have h0 : 2 * a - (p - voc) < 0 := by linarith
      exact mul_neg_of_pos_of_neg hI (div_neg_of_pos_of_neg (by linarith) h0)
    · refine ⟨_, hval (by linarith), ?_⟩
      exact mul_neg_of_pos_of_neg hI (div_neg_of_neg_of_pos (by linarith) (by linarith))

/-- Photocurrent `e`, all other parameters 1: the open circuit voltage is 1. -/
theorem demo_voc : IsVoc (Real.exp 1) 1 0 1 1 1 := by
  unfold IsVoc OnCurve; norm_num

example {num : Numerics} (hn : GoodNum num) := io_step hn 1.5 (Real.exp 1) 1 0 1 1 (Real.exp_pos 1).le (by norm_num) (by norm_num) (by norm_num)
  (by norm_num) 1 demo_voc

/-! ### How long the saturation current is refined -/

/-- The open circuit voltage pass for curve `k`. -/
def pass (num : Numerics) (c : Curves) (iph rs rsh : Series) (k : ℕ) : Fl → Fl :=
  ioStep num (c.voc k) (iph k) (rs k) (rsh k) (c.nnsvth k)

theorem loop_passes (num : Numerics) (c : Curves) (iph rs rsh : Series) (idx : List ℕ) :
    ∀ fuel tio, ∃ m ≤ fuel, (0 < fuel → 1 ≤ m) ∧
      (∀ k, updateIoLoop num c iph rs rsh idx fuel tio k = (pass num c iph rs rsh k)^[m] (tio k)) ∧
      (∀ j < m, (j + 1 < m → fin 1e-6 < ioErr idx (fun k => (pass num c iph rs rsh k)^[j + 1] (tio k))
        (fun k => (pass num c iph rs rsh k)^[j] (tio k))) ∧
        (j + 1 = m → m < fuel → ¬ fin 1e-6 < ioErr idx (fun k => (pass num c iph rs rsh k)^[j + 1] (tio k))
        (fun k => (pass num c iph rs rsh k)^[j] (tio k)))) := by
  intro fuel
  induction fuel with
  | zero => intro tio; exact ⟨0, le_rfl, by simp, fun k => rfl, by simp⟩
  | succ fuel ih =>
    intro tio
    simp only [updateIoLoop]
    by_cases h : fin 1e-6 < ioErr idx (fun k => ioStep num (c.voc k) (iph k) (rs k) (rsh k) (c.nnsvth k) (tio k)) tio
    · rw [if_pos h]
      obtain ⟨m, hm, hm1, hv, he⟩ := ih (fun k => ioStep num (c.voc k) (iph k) (rs k) (rsh k) (c.nnsvth k) (tio k))
      refine ⟨m + 1, by omega, fun _ => by omega, fun k => hv k, fun j hj => ?_⟩
      rcases j with _ | j
      · refine ⟨fun _ => h, fun h1 h2 => ?_⟩
        exact absurd (hm1 (by omega)) (by omega)
      · obtain ⟨a1, a2⟩ := he j (by omega)
        exact ⟨fun h' => a1 (by omega), fun h1 h2 => a2 (by omega) (by omega)⟩
    · rw [if_neg h]
      refine ⟨1, by omega, fun _ => le_rfl, fun k => rfl, fun j hj => ?_⟩
      obtain rfl : j = 0 := by omega
      exact ⟨fun h' => by omega, fun _ _ => h⟩

/-- **C146, number of passes.**  For every non-empty set of curves the refinement of `io` makes the same number `m` of passes
on all of them, between one and nine; it goes on while the largest relative change (in percent) exceeds `1e-6`, and stops
before the ninth pass only when it does not.  Without a curve it raises `ValueError`. -/
theorem io_passes (num : Numerics) (c : Curves) (iph io rs rsh : Series) (idx : List ℕ) :
    (idx = [] → updateIo num c iph io rs rsh idx = .error .valueError) ∧
    (idx ≠ [] → ∃ r m, updateIo num c iph io rs rsh idx = .ok r ∧ 1 ≤ m ∧ m ≤ 9 ∧
      (∀ k, r k = (pass num c iph rs rsh k)^[m] (io k)) ∧
      (∀ j, j + 1 < m → fin 1e-6 < ioErr idx (fun k => (pass num c iph rs rsh k)^[j + 1] (io k))
        (fun k => (pass num c iph rs rsh k)^[j] (io k))) ∧
      (m < 9 → ¬ fin 1e-6 < ioErr idx (fun k => (pass num c iph rs rsh k)^[m] (io k))
        (fun k => (pass num c iph rs rsh k)^[m - 1] (io k)))) := by
  refine ⟨fun h => by simp [updateIo, h], fun h => ?_⟩
  obtain ⟨m, hm, hm1, hv, he⟩ := loop_passes num c iph rs rsh idx 9 io
  have hm1 := hm1 (by norm_num)
  refine ⟨_, m, by simp only [updateIo, if_neg h], hm1, hm, hv, fun j hj => (he j (by omega)).1 hj, fun h9 => ?_⟩
  obtain ⟨m', rfl⟩ : ∃ m', m = m' + 1 := ⟨m - 1, by omega⟩
  exact (he m' (by omega)).2 rfl h9

example (num : Numerics) (c : Curves) (iph io rs rsh : Series) := (io_passes num c iph io rs rsh [0, 1]).2 (by simp)

private theorem foldl_nan (xs : List Fl) : xs.foldl maximum nan = nan := by
  induction xs with
  | nil => rfl
  | cons x xs ih => simpa [List.foldl] using ih

private theorem foldl_mem_nan : ∀ (xs : List Fl) (a : Fl), nan ∈ xs → xs.foldl maximum a = nan
  | [], _, h => by simp at h
  | x :: xs, a, h => by
    rcases List.mem_cons.mp h with h | h
    · subst h
      have : maximum a nan = nan := by cases a <;> rfl
      rw [List.foldl_cons, this, foldl_nan]
    · rw [List.foldl_cons]; exact foldl_mem_nan xs _ h

/-- `np.max` is NaN as soon as one entry is. -/
theorem npMax_nan {xs : List Fl} (h : nan ∈ xs) : npMax xs = nan := by
  rcases xs with _ | ⟨x, xs⟩
  · rfl
  · rcases List.mem_cons.mp h with h | h
    · subst h; exact foldl_nan xs
    · exact foldl_mem_nan xs x h

example := npMax_nan (xs := [fin 1, nan, fin 2]) (by simp)

private theorem le_maximum {a b : Fl} (ha : a ≠ nan) (hb : b ≠ nan) : a ≤ maximum a b ∧ b ≤ maximum a b ∧ maximum a b ≠ nan := by
  cases a <;> cases b <;> simp_all [maximum]

private theorem foldl_ge : ∀ (xs : List Fl) (a : Fl), a ≠ nan → (∀ x ∈ xs, x ≠ nan) →
    xs.foldl maximum a ≠ nan ∧ a ≤ xs.foldl maximum a ∧ ∀ x ∈ xs, x ≤ xs.foldl maximum a
  | [], a, ha, _ => ⟨ha, by cases a <;> simp_all, by simp⟩
  | x :: xs, a, ha, h => by
    have hx := h x (List.mem_cons_self)
    obtain ⟨l1, l2, l3⟩ := le_maximum ha hx
    obtain ⟨r1, r2, r3⟩ := foldl_ge xs (maximum a x) l3 (fun y hy => h y (List.mem_cons_of_mem _ hy))
    have tr : ∀ {p q r : Fl}, p ≤ q → q ≤ r → p ≤ r := by
      intro p q r h1 h2
      cases p <;> cases q <;> cases r <;> simp_all
      linarith
    refine ⟨r1, tr l1 r2, fun y hy => ?_⟩
    rcases List.mem_cons.mp hy with rfl | hy
    · exact tr l2 r2
    · exact r3 y hy

/-- `np.max` of an array without NaN is an upper bound. -/
theorem npMax_ge {xs : List Fl} (h : ∀ x ∈ xs, x ≠ nan) {x : Fl} (hx : x ∈ xs) : npMax xs ≠ nan ∧ x ≤ npMax xs := by
  rcases xs with _ | ⟨y, ys⟩
  · simp at hx
  · obtain ⟨h1, h2, h3⟩ := foldl_ge ys y (h y List.mem_cons_self) (fun z hz => h z (List.mem_cons_of_mem _ hz))
    refine ⟨h1, ?_⟩
    rcases List.mem_cons.mp hx with rfl | hx
    · exact h2
    · exact h3 x hx

example := npMax_ge (xs := [fin 1, fin 2]) (by simp) (x := fin 1) (by simp)

/-- **C146, finding.**  A NaN in one curve ends the refinement of all the curves after that pass. -/
theorem nan_stops_all (num : Numerics) (c : Curves) (iph rs rsh : Series) (idx : List ℕ) (tio : Series) (fuel : ℕ) {k : ℕ}
    (hk : k ∈ idx) (hn : pass num c iph rs rsh k (tio k) = nan) :
    ∀ j, updateIoLoop num c iph rs rsh idx (fuel + 1) tio j = pass num c iph rs rsh j (tio j) := by
  intro j
  simp only [updateIoLoop]
  have hn' : ioStep num (c.voc k) (iph k) (rs k) (rsh k) (c.nnsvth k) (tio k) = nan := hn
  have he : ioErr idx (fun k => ioStep num (c.voc k) (iph k) (rs k) (rsh k) (c.nnsvth k) (tio k)) tio = nan := by
    unfold ioErr
    rw [npMax_nan, nan_mul]
    refine List.mem_map.mpr ⟨k, hk, ?_⟩
    beta_reduce
    rw [hn', nan_sub]
    have : Fl.abs nan = nan := rfl
    rw [this, nan_div]
  rw [he, if_neg (by simp)]
  rfl

/-- A missing open circuit voltage. -/
example (num : Numerics) := nan_stops_all num ⟨2, fun _ => nan, fun _ => fin 8, fun _ => fin 30, fun _ => fin 7.5, fun _ => fin 1000,
  fun _ => fin 1.8⟩ (fun _ => fin 8) (fun _ => fin 0.3) (fun _ => fin 300) [0, 1] (fun _ => fin 1e-9) 8 (k := 0) (by simp) (by
    simp [pass, ioStep])

/-- **C146, tolerance.**  When a pass does not change any of the (physically sensible) curves by more than the tolerance, the
open circuit voltage of every one of these curves is within `1.1e-8` thermal voltages of the measured one. -/
theorem io_tolerance {num : Numerics} (hn : GoodNum num) (c : Curves) (iph rs rsh tio : Series) (idx : List ℕ)
    (v L R S t a p : ℕ → ℝ)
    (hv : ∀ k ∈ idx, c.voc k = fin (v k) ∧ iph k = fin (L k) ∧ rs k = fin (R k) ∧ rsh k = fin (S k) ∧
      c.nnsvth k = fin (a k) ∧ tio k = fin (t k) ∧ 0 ≤ L k ∧ 0 ≤ R k ∧ 0 < S k ∧ 0 < a k ∧ 0 < t k ∧
      IsVoc (L k) (t k) (R k) (S k) (a k) (p k))
    (hstop : ¬ fin 1e-6 < ioErr idx (fun k => pass num c iph rs rsh k (tio k)) tio) :
    ∀ k ∈ idx, |p k - v k| ≤ 1.1e-8 * a k := by
  have hx : ∀ k ∈ idx, Fl.abs (pass num c iph rs rsh k (tio k) - tio k) / tio k =
      if p k - v k = 2 * a k then pinf else fin |2 * (p k - v k) / (2 * a k - (p k - v k))| := by
    intro k hk
    obtain ⟨h1, h2, h3, h4, h5, h6, g1, g2, g3, g4, g5, g6⟩ := hv k hk
    obtain ⟨s1, -, -, -, -, s6⟩ := io_step hn (v k) (L k) (t k) (R k) (S k) (a k) g1 g5 g2 g3 g4 (p k) g6
    unfold pass
    rw [h1, h2, h3, h4, h5, h6]
    by_cases he : p k - v k = 2 * a k
    · rw [if_pos he, s6 he]
      change pinf / fin (t k) = pinf
      rw [pinf_div_fin, if_neg (not_lt.mpr g5.le)]
    · rw [if_neg he, s1 he]
      have h0 : 2 * a k - (p k - v k) ≠ 0 := fun h => he (by linarith)
      simp only [fin_sub, Fl.abs, fin_div g5.ne', fin_inj]
      have e : t k * ((2 * a k + (p k - v k)) / (2 * a k - (p k - v k))) - t k =
          t k * (2 * (p k - v k) / (2 * a k - (p k - v k))) := by
        field_simp; ring
      rw [e, _root_.abs_mul, abs_of_pos g5, mul_div_cancel_left₀ _ g5.ne']
  intro k hk
  have hnn : ∀ x ∈ idx.map (fun k => Fl.abs (pass num c iph rs rsh k (tio k) - tio k) / tio k), x ≠ nan := by
    intro x hxm
    obtain ⟨j, hj, rfl⟩ := List.mem_map.mp hxm
    rw [hx j hj]
    split_ifs <;> simp
  obtain ⟨hM, hle⟩ := npMax_ge hnn (List.mem_map.mpr ⟨k, hk, rfl⟩)
  have hle' := hle
  rw [hx k hk] at hle
  unfold ioErr at hstop
  generalize npMax (idx.map (fun k => Fl.abs (pass num c iph rs rsh k (tio k) - tio k) / tio k)) = M at *
  have hM' : ∃ m : ℝ, M = fin m ∨ M = ninf := by
    cases M with
    | nan => exact absurd rfl hM
    | pinf =>
      exfalso; apply hstop
      rw [ofNat_eq, pinf_mul_fin, infSign_pos (by norm_num)]
      simp
    | ninf => exact ⟨0, Or.inr rfl⟩
    | fin m => exact ⟨m, Or.inl rfl⟩
  obtain ⟨-, -, -, -, -, -, -, -, -, g4, -, -⟩ := hv k hk
  obtain ⟨m, rfl | rfl⟩ := hM'
  · rw [ofNat_eq, fin_mul, fin_lt, not_lt] at hstop
    by_cases he : p k - v k = 2 * a k
    · rw [if_pos he] at hle; simp at hle
    · rw [if_neg he, fin_le] at hle
      have h0 : 2 * a k - (p k - v k) ≠ 0 := fun h => he (by linarith)
      rw [abs_div, div_le_iff₀ (abs_pos.mpr h0), _root_.abs_mul] at hle
      have hm : m ≤ 1e-8 := by norm_num at hstop ⊢; linarith
      have h1 : |2 * a k - (p k - v k)| ≤ 2 * a k + |p k - v k| := by
        have := abs_sub (2 * a k) (p k - v k)
        rwa [abs_of_pos (show 0 < 2 * a k by positivity)] at this
      have h2 : m * |2 * a k - (p k - v k)| ≤ 1e-8 * (2 * a k + |p k - v k|) := by
        refine mul_le_mul hm h1 (abs_nonneg _) (by norm_num)
      rw [abs_of_pos (two_pos)] at hle
      have h3 := abs_nonneg (p k - v k)
      norm_num at h2 ⊢
      linarith
  · exfalso
    split_ifs at hle <;> simp at hle

/-- One curve whose parameters already give the measured open circuit voltage. -/
example {num : Numerics} (hn : GoodNum num) := io_tolerance hn ⟨1, fun _ => fin 1, fun _ => fin 2, fun _ => fin 0.5, fun _ => fin 1,
  fun _ => fin 1000, fun _ => fin 1⟩ (fun _ => fin (Real.exp 1)) (fun _ => fin 0) (fun _ => fin 1) (fun _ => fin 1) [0]
  (fun _ => 1) (fun _ => Real.exp 1) (fun _ => 0) (fun _ => 1) (fun _ => 1) (fun _ => 1) (fun _ => 1)
  (fun k _ => ⟨rfl, rfl, rfl, rfl, rfl, rfl, (Real.exp_pos 1).le, le_refl _, by norm_num, by norm_num, by norm_num, demo_voc⟩) (by
    have h := (io_step hn 1 (Real.exp 1) 1 0 1 1 (Real.exp_pos 1).le (by norm_num) (by norm_num) (by norm_num)
      (by norm_num) 1 demo_voc).2.1.2 demo_voc
    simp only [pass, ioErr, List.map_cons, List.map_nil, h]
    simp [npMax]
    norm_num)

/-! ### The overflow branch of the Lambert W function -/

private theorem aliasedStep_fin {x : ℝ} (hx : 0 < x) : aliasedStep (fin x) = fin (x - x * Real.log x / (1 + x)) := by
  have h1 : 1 + x ≠ 0 := by positivity
  simp only [aliasedStep, one_eq, log_fin hx, fin_sub, fin_add, fin_div h1, fin_mul, fin_inj]
  field_simp
  ring

private theorem log_le_half {x : ℝ} (hx : 0 < x) : Real.log x ≤ 0.368 * x := by
  have h := Real.log_le_sub_one_of_pos (show 0 < 0.368 * x by positivity)
  rw [Real.log_mul (by norm_num) hx.ne'] at h
  have h2 : -1 ≤ Real.log 0.368 := by
    rw [Real.le_log_iff_exp_le (by norm_num), Real.exp_neg, inv_le_comm₀ (Real.exp_pos 1) (by norm_num)]
    have := Real.exp_one_gt_d9
    norm_num at this ⊢
    linarith
  linarith

private theorem log_100 : 4.6 < Real.log 100 := by
  have h : Real.exp 1 < 2.7182818286 := Real.exp_one_lt_d9
  rw [Real.lt_log_iff_exp_lt (by norm_num)]
  have e : Real.exp 4.6 = Real.exp 1 ^ (4.6 : ℝ) := by rw [← Real.exp_one_rpow]
  have h5 : Real.exp 4.6 ^ 5 = Real.exp 1 ^ 23 := by
    rw [← Real.exp_nat_mul, ← Real.exp_nat_mul]; norm_num
  by_contra hc
  push Not at hc
  have h1 : (100 : ℝ) ^ 5 ≤ Real.exp 4.6 ^ 5 := pow_le_pow_left₀ (by norm_num) hc 5
  have h2 : Real.exp 1 ^ 23 < 2.7182818286 ^ 23 := pow_lt_pow_left₀ h (Real.exp_pos 1).le (by norm_num)
  rw [h5] at h1
  norm_num at h1 h2
  linarith

private theorem step_down {x : ℝ} (hx : 100 ≤ x) :
    x - x * Real.log x / (1 + x) ≤ x - 4.5 ∧ 0.632 * x ≤ x - x * Real.log x / (1 + x) := by
  have h0 : 0 < x := by linarith
  have h1 : 0 < 1 + x := by linarith
  have hl : 4.6 < Real.log x := lt_of_lt_of_le log_100 (Real.log_le_log (by norm_num) hx)
  constructor
  · have : 4.5 ≤ x * Real.log x / (1 + x) := by
      rw [le_div_iff₀ h1]
      norm_num at hl ⊢
      nlinarith
    linarith
  · have h2 := log_le_half h0
    have : x * Real.log x / (1 + x) ≤ 0.368 * x := by
      rw [div_le_iff₀ h1]
      nlinarith
    norm_num at this ⊢
    linarith

/-- **C146, finding: the overflow branch.**  Where the argument of the Lambert W function overflows, the code intends three
Newton steps for `w + log w = L` from `w = L`; because its two names share one array, the result is more than 9 below the
solution `W`, for every `L ≥ 300` (overflow starts at `L > 709`).  Three genuine Newton steps stay below `1e-12`
(`logLambertw_accuracy`, C70). -/
theorem overflow_branch_wrong {L W : ℝ} (hL : 300 ≤ L) (hWp : 0 < W) (hW : W + Real.log W = L) :
    ∃ w, aliasedNewton (fin L) = fin w ∧ 0 < w ∧ w < W - 9 := by
  have h0 : 0 < L := by linarith
  obtain ⟨a1, b1⟩ := step_down (show (100 : ℝ) ≤ L by linarith)
  set x1 := L - L * Real.log L / (1 + L) with hx1
  have g1 : 189 ≤ x1 := by norm_num at b1 ⊢; linarith
  obtain ⟨a2, b2⟩ := step_down (show (100 : ℝ) ≤ x1 by linarith)
  set x2 := x1 - x1 * Real.log x1 / (1 + x1) with hx2
  have g2 : 119 ≤ x2 := by norm_num at b2 ⊢; linarith
  obtain ⟨a3, b3⟩ := step_down (show (100 : ℝ) ≤ x2 by linarith)
  refine ⟨x2 - x2 * Real.log x2 / (1 + x2), ?_, ?_, ?_⟩
  · simp only [aliasedNewton]
    rw [aliasedStep_fin h0, ← hx1, aliasedStep_fin (by linarith), ← hx2, aliasedStep_fin (by linarith)]
  · norm_num at b3 ⊢; linarith
  · -- the first step is a genuine Newton step, which undershoots the root
    have hWL : W < L ∨ L ≤ W := lt_or_ge _ _
    have hx1W : x1 ≤ W := by
      have h1 : 0 < 1 + L := by linarith
      have ht := Real.log_le_sub_one_of_pos (show 0 < W / L by positivity)
      rw [Real.log_div hWp.ne' h0.ne'] at ht
      have h2 : Real.log W - Real.log L ≤ W / L - 1 := ht
      have h3 : (Real.log W - Real.log L) * L ≤ W - L := by
        have := mul_le_mul_of_nonneg_right h2 h0.le
        rwa [sub_mul (W / L), div_mul_cancel₀ _ h0.ne', one_mul] at this
      rw [hx1, sub_le_iff_le_add, ← sub_le_iff_le_add', le_div_iff₀ h1]
      have h4 : Real.log W = L - W := by linarith
      rw [h4] at h3
      nlinarith
    have : (9 : ℝ) = 4.5 + 4.5 := by norm_num
    rcases a3.lt_or_eq with h | h
    · linarith
    · exfalso
      have h0' : 0 < x2 := by linarith
      have h1' : 0 < 1 + x2 := by linarith
      have hl : 4.6 < Real.log x2 := lt_of_lt_of_le log_100 (Real.log_le_log (by norm_num) (by linarith))
      have : x2 * Real.log x2 / (1 + x2) = 4.5 := by linarith
      rw [div_eq_iff h1'.ne'] at this
      norm_num at this hl
      nlinarith

example := overflow_branch_wrong (L := Real.exp 6 + 6) (W := Real.exp 6)
  (by
    have h : (2.7 : ℝ) ^ 6 ≤ Real.exp 1 ^ 6 := pow_le_pow_left₀ (by norm_num) (by linarith [Real.exp_one_gt_d9]) 6
    rw [← Real.exp_nat_mul] at h
    norm_num at h ⊢
    linarith)
  (Real.exp_pos 6) (by rw [Real.log_exp])

/-- **C146, finding: consequence.**  In that branch the returned series resistance is too large by more than `9 a / imp`: the
measured maximum power point does not lie on the curve. -/
theorem overflow_misses_mpp {num : Numerics} (vmp imp iph io rsh a : ℝ) (ha : 0 < a) (hI : 0 < io)
    (hr : 0 < rsh) (hi : 0 < imp) (hov : num.ovf (phiArg (fin imp) (fin iph) (fin io) (fin rsh) (fin a)))
    (hL : 300 ≤ Real.log rsh + Real.log io - Real.log a + rsh * (iph + io - imp) / a) :
    ∃ rs rs', rsFormula num (fin vmp) (fin imp) (fin iph) (fin io) (fin rsh) (fin a) = fin rs ∧
      OnCurve iph io rs' rsh a vmp imp ∧ rs' + 9 * a / imp < rs ∧ ¬ OnCurve iph io rs rsh a vmp imp := by
  obtain ⟨LW, hLW⟩ := exists_isLogLambertW
  obtain ⟨w, hw0, -, hw⟩ := hLW (Real.log rsh + Real.log io - Real.log a + rsh * (iph + io - imp) / a)
  have hwe : w * Real.exp w = rsh * io / a * Real.exp (rsh * (iph + io - imp) / a) := by
    apply Real.log_injOn_pos
    · exact mul_pos hw0 (Real.exp_pos w)
    · rw [Set.mem_Ioi]
      positivity
    · rw [Real.log_mul hw0.ne' (Real.exp_pos w).ne', Real.log_exp,
        Real.log_mul (by positivity) (Real.exp_pos _).ne', Real.log_exp, Real.log_div (by positivity) ha.ne',
        Real.log_mul hr.ne' hI.ne']
      linarith
  obtain ⟨x, hx, hx0, hxw⟩ := overflow_branch_wrong hL hw0 hw
  have hon := onCurve_mp_iff (vmp := vmp) ha hI hr hi.ne' hwe
  have hlt : a * x / imp < a * w / imp - 9 * a / imp := by
    rw [← sub_div]
    apply div_lt_div_of_pos_right _ hi
    nlinarith
  have h9 : 0 < 9 * a / imp := by positivity
  refine ⟨(iph + io - imp) * rsh / imp - a * x / imp - vmp / imp, _, ?_, (hon _).mpr rfl, by linarith, fun h => ?_⟩
  · have hphi : calcPhi num (fin imp) (fin iph) (fin io) (fin rsh) (fin a) = fin x := by
      simp only [calcPhi, if_pos hov, log_fin hr, log_fin hI, log_fin ha, fin_add, fin_sub, fin_mul, fin_div ha.ne', hx]
    simp only [rsFormula, hphi, fin_mul, fin_add, fin_sub, fin_div hi.ne']
  · have := (hon _).mp h
    linarith

theorem demo_overflow : (300 : ℝ) ≤ Real.log 5000 + Real.log 1e-9 - Real.log 2 + 5000 * (8 + 1e-9 - 7.5) / 2 := by
  have h1 : 0 ≤ Real.log 5000 := Real.log_nonneg (by norm_num)
  have h2 : Real.log 2 ≤ 1 := by have := Real.log_two_lt_d9; linarith
  have h3 : -90 ≤ Real.log 1e-9 := by
    have e : (1e-9 : ℝ) = 10 ^ (-9 : ℤ) := by norm_num
    rw [e, Real.log_zpow]
    have : Real.log 10 ≤ 10 - 1 := Real.log_le_sub_one_of_pos (by norm_num)
    push_cast
    linarith
  norm_num at h3 ⊢
  linarith

example (num : Numerics) := overflow_misses_mpp (num := { num with ovf := fun _ => True }) 30 7.5 8 1e-9 5000 2 (by norm_num) (by norm_num)
  (by norm_num) (by norm_num) trivial demo_overflow

/-! ### The filter -/

/-- **C146, filter.**  A curve with real parameters is kept exactly when `rsh ≥ 0`, `0 ≤ rs ≤ rsh`, `io > 0` and its short
circuit current departs by at most 5 % from the line through the origin fitted to all the curves. -/
theorem filter_iff (lib : Sde.LinLib) (c : Curves) (io rs rsh : Series) (k : ℕ) (i r s e g j : ℝ) (hi : io k = fin i)
    (hr : rs k = fin r) (hs : rsh k = fin s) (he : effSlope lib c = fin e) (hg : c.ee k = fin g) (hj : c.isc k = fin j)
    (hj0 : 0 < j) :
    filterParams lib c io rs rsh k ↔ (0 ≤ r ∧ r ≤ s ∧ 0 < i ∧ |e * g / 1000 - j| ≤ 0.05 * j) := by
  have h1000 : (1000 : ℝ) ≠ 0 := by norm_num
  simp only [filterParams, goodR, linearIsc, hi, hr, hs, he, hg, hj, isnan, zero_eq, ofNat_eq, fin_lt, fin_le, fin_mul,
    fin_div h1000, fin_sub, Fl.abs, fin_div hj0.ne', reduceCtorEq, or_false, not_lt, not_le, div_le_iff₀ hj0]
  constructor
  · rintro ⟨⟨-, h2, h3, h4⟩, h5⟩; exact ⟨h2, h3, h4, h5⟩
  · rintro ⟨h2, h3, h4, h5⟩; exact ⟨⟨by linarith, h2, h3, h4⟩, h5⟩

example := filter_iff ⟨fun _ => (nan, nan), fun _ => [fin 8.2, fin 0], fun _ _ _ => (nan, nan)⟩ ⟨1, fun _ => fin 40, fun _ => fin 8, fun _ => fin 30,
  fun _ => fin 7.5, fun _ => fin 1000, fun _ => fin 1.8⟩ (fun _ => fin 1e-9) (fun _ => fin 0.3) (fun _ => fin 300) 0 1e-9 0.3 300 8.2 1000 8 rfl rfl rfl
  rfl rfl rfl (by norm_num)

/-- **C146, filter.**  A curve with a NaN parameter is never kept. -/
theorem filter_nan (lib : Sde.LinLib) (c : Curves) (io rs rsh : Series) (k : ℕ)
    (h : io k = nan ∨ rs k = nan ∨ rsh k = nan) : ¬ filterParams lib c io rs rsh k := by
  rintro ⟨⟨h1, -, h3, h4⟩, -⟩
  rcases h with h | h | h
  · exact h4 (Or.inr h)
  · exact h3 (Or.inr h)
  · exact h1 (Or.inr h)

example (lib : Sde.LinLib) (c : Curves) := filter_nan lib c (fun _ => fin 1e-9) (fun _ => nan) (fun _ => fin 300) 0 (Or.inr (Or.inl rfl))

/-! ### Witnesses -/

/-- Numerics that compute the Lambert W functions exist. -/
theorem goodNum_exists (ovf : Fl → Prop) (fmin : (Fl → Fl) → Fl × Fl × Fl → Fl × Fl) (s : Solvers) :
    ∃ W LW, GoodNum ⟨W, LW, ovf, fmin, s⟩ := by
  obtain ⟨W, hW⟩ := exists_isLambertW
  obtain ⟨LW, hLW⟩ := exists_isLogLambertW
  exact ⟨W, LW, hW, hLW⟩

/-- The hypotheses of `rsh_fixed_iff` are met by a curve without series resistance. -/
example : IsCurve 10 1 0 1 (1 / Real.log 2) (fun v => 10 - ((2 : ℝ) ^ v - 1) - v) ∧
    (fun v : ℝ => 10 - ((2 : ℝ) ^ v - 1) - v) 2 = 5 := by
  constructor
  · intro v
    unfold OnCurve
    beta_reduce
    rw [Real.rpow_def_of_pos two_pos]
    simp only [mul_zero, add_zero, div_one, one_mul]
    congr 4
    field_simp
  · norm_num

/-- The hypotheses of `overflow_misses_mpp`: a module with `rsh = 5000`, `iph - imp = 0.5`, `a = 2`, `io = 1e-9`. -/
example : (300 : ℝ) ≤ Real.log 5000 + Real.log 1e-9 - Real.log 2 + 5000 * (8 + 1e-9 - 7.5) / 2 := by
  have h1 : 0 ≤ Real.log 5000 := Real.log_nonneg (by norm_num)
  have h2 : Real.log 2 ≤ 1 := by have := Real.log_two_lt_d9; linarith
  have h3 : -(1e9 ^ (1 / 9 : ℝ) * 9) ≤ Real.log 1e-9 := by
    have e : (1e-9 : ℝ) = 10 ^ (-9 : ℤ) := by norm_num
    have e2 : (1e9 : ℝ) ^ (1 / 9 : ℝ) = 10 := by
      rw [show (1e9 : ℝ) = 10 ^ (9 : ℝ) by norm_num, ← Real.rpow_mul (by norm_num)]; norm_num
    rw [e2, e, Real.log_zpow]
    have : Real.log 10 ≤ 10 - 1 := Real.log_le_sub_one_of_pos (by norm_num)
    push_cast
    linarith
  have e2 : (1e9 : ℝ) ^ (1 / 9 : ℝ) = 10 := by
    rw [show (1e9 : ℝ) = 10 ^ (9 : ℝ) by norm_num, ← Real.rpow_mul (by norm_num)]; norm_num
  rw [e2] at h3
  norm_num at h3 ⊢
  linarith

end Pvlib.Props.SdmSteps
