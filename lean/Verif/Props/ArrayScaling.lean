import Verif.Props.PvDiode

/-! # Properties C193, C194: arrays of identical modules, and better modules -/

noncomputable section
open scoped Classical
namespace Pvlib.Props.ArrayScaling
open Fl Pvlib.SingleDiode Pvlib.PvFunctions Pvlib.Props.LambertW Pvlib.Props.SingleDiode Pvlib.Props.PvDiode

variable {IL I0 Rs g a s p : ℝ} {Rsh : Fl} {n : Numerics}

/-! ### C193: series and parallel connection -/

/-- The five parameters of an array of `p` strings of `s` modules each: currents are `p` times, the thermal voltage `s` times, the
resistances `s / p` times those of one module. -/
def arrayOf (s p : ℝ) (f : Five) : Five :=
  ⟨f.IL * fin p, f.I0 * fin p, f.Rs * fin (s / p), f.Rsh * fin (s / p), f.nNsVth * fin s⟩

theorem arrayOf_fin (IL I0 Rs a s p : ℝ) (Rsh : Fl) : arrayOf s p ⟨fin IL, fin I0, fin Rs, Rsh, fin a⟩ =
    ⟨fin (IL * p), fin (I0 * p), fin (Rs * (s / p)), Rsh * fin (s / p), fin (a * s)⟩ := rfl

private theorem sane_array (h : Sane IL I0 Rs g a) (hs : 0 < s) (hp : 0 < p) :
    Sane (IL * p) (I0 * p) (Rs * (s / p)) (g * (p / s)) (a * s) := by
  have := h.IL; have := h.I0; have := h.Rs; have := h.g; have := h.a
  constructor <;> positivity

private theorem cond_array (hg : Conductance Rsh g) (hs : 0 < s) (hp : 0 < p) : Conductance (Rsh * fin (s / p)) (g * (p / s)) := by
  rcases hg with ⟨r, rfl, hr, rfl⟩ | ⟨rfl, rfl⟩
  · refine .inl ⟨r * (s / p), rfl, by positivity, ?_⟩
    field_simp
  · refine .inr ⟨?_, zero_mul _⟩
    rw [pinf_mul_fin, infSign_pos (by positivity)]

/-- **C193**: the curve of the array is the curve of one module with voltages times `s` and currents times `p` - Kirchhoff's laws for
identical modules. -/
theorem diode_array (hs : 0 < s) (hp : 0 < p) (ha : a ≠ 0) (i v : ℝ) :
    Diode (IL * p) (I0 * p) (Rs * (s / p)) (g * (p / s)) (a * s) (i * p) (v * s) ↔ Diode IL I0 Rs g a i v := by
  unfold Diode
  have e1 : v * s + i * p * (Rs * (s / p)) = (v + i * Rs) * s := by field_simp
  have e2 : (v + i * Rs) * s / (a * s) = (v + i * Rs) / a := by field_simp
  rw [e1, e2]
  have e3 : IL * p - I0 * p * (Real.exp ((v + i * Rs) / a) - 1) - (v + i * Rs) * s * (g * (p / s)) =
      (IL - I0 * (Real.exp ((v + i * Rs) / a) - 1) - (v + i * Rs) * g) * p := by field_simp
  rw [e3]
  exact mul_left_inj' hp.ne'

/-- **C193**: `i_from_v` of the array at `s` times the voltage is `p` times `i_from_v` of the module. -/
theorem array_i_from_v (hn : Good n) (h : Sane IL I0 Rs g a) (hg : Conductance Rsh g) (hs : 0 < s) (hp : 0 < p) (v : ℝ) :
    ∃ i, iFromV n (fin v) ⟨fin IL, fin I0, fin Rs, Rsh, fin a⟩ = .ok (fin i) ∧
      iFromV n (fin (v * s)) (arrayOf s p ⟨fin IL, fin I0, fin Rs, Rsh, fin a⟩) = .ok (fin (i * p)) := by
  have el : pyLower "lambertw" = "lambertw" := by decide +kernel
  obtain ⟨i, hi, hd⟩ := iFromV_solves h hg hn.W v
  obtain ⟨j, hj, hd'⟩ := iFromV_solves (sane_array h hs hp) (cond_array hg hs hp) hn.W (v * s)
  have : j = i * p := (diode_unique (sane_array h hs hp) hd' ((diode_array hs hp h.a.ne' i v).mpr hd)).1 rfl
  refine ⟨i, ?_, ?_⟩
  · simp only [iFromV, el, if_true, hi]
  · simp only [iFromV, el, if_true, arrayOf_fin, hj, this]

/-- **C193**: `v_from_i` of the array at `p` times the current is `s` times `v_from_i` of the module. -/
theorem array_v_from_i (hn : Good n) (h : Sane IL I0 Rs g a) (hg : Conductance Rsh g) (hg0 : 0 < g) (hs : 0 < s) (hp : 0 < p) (i : ℝ) :
    ∃ v, vFromI n (fin i) ⟨fin IL, fin I0, fin Rs, Rsh, fin a⟩ = .ok (fin v) ∧
      vFromI n (fin (i * p)) (arrayOf s p ⟨fin IL, fin I0, fin Rs, Rsh, fin a⟩) = .ok (fin (v * s)) := by
  have el : pyLower "lambertw" = "lambertw" := by decide +kernel
  obtain ⟨v, hv, hd⟩ := vFromI_solves (ovf := n.ovf) h hg hg0 hn.W hn.LW i
  obtain ⟨w, hw, hd'⟩ := vFromI_solves (ovf := n.ovf) (sane_array h hs hp) (cond_array hg hs hp) (by positivity) hn.W hn.LW (i * p)
  have : w = v * s := (diode_unique (sane_array h hs hp) hd' ((diode_array hs hp h.a.ne' i v).mpr hd)).2.1 rfl
  refine ⟨v, ?_, ?_⟩
  · simp only [vFromI, el, if_true, hv]
  · simp only [vFromI, el, if_true, arrayOf_fin, hw, this]

/-- The seven points as the columns of a one-row frame, in the order in which `singlediode` returns them. -/
def frameOf (o : SevenPoints) : Frame :=
  [("i_sc", [o.i_sc]), ("v_oc", [o.v_oc]), ("i_mp", [o.i_mp]), ("v_mp", [o.v_mp]), ("p_mp", [o.p_mp]), ("i_x", [o.i_x]), ("i_xx", [o.i_xx])]

/-- **C193**: `singlediode` of the array's parameters gives the same frame as `scale_voltage_current_power` of `singlediode` of one
module, whatever the numbers of modules and strings: scaling the result, as `ModelChain` does, is solving the array. -/
theorem array_singlediode (hn : Good n) (h : Sane IL I0 Rs g a) (hIL : 0 < IL) (hg : Conductance Rsh g) (hs : 0 < s) (hp : 0 < p) :
    ∃ o o', singlediode n ⟨fin IL, fin I0, fin Rs, Rsh, fin a⟩ = .ok o ∧
      singlediode n (arrayOf s p ⟨fin IL, fin I0, fin Rs, Rsh, fin a⟩) = .ok o' ∧
      scaleVoltageCurrentPower (frameOf o) (fin s) (fin p) = .ok (frameOf o') := by
  have el : pyLower "lambertw" = "lambertw" := by decide +kernel
  have h' := sane_array h hs hp
  obtain ⟨isc, voc, imp, vmp, ix, ixx, c, hc, e1, e2, e3, e4, e5, e6, e7, d1, d2, d3, d4, d5, dm, -⟩ :=
    lambertw_points (ovf := n.ovf) h hIL hg hn.W hn.LW hn.fmin none
  obtain ⟨isc', voc', imp', vmp', ix', ixx', c', hc', e1', e2', e3', e4', e5', e6', e7', d1', d2', d3', d4', d5', dm', -⟩ :=
    lambertw_points (ovf := n.ovf) h' (mul_pos hIL hp) (cond_array hg hs hp) hn.W hn.LW hn.fmin none
  have A := fun i v => diode_array (IL := IL) (I0 := I0) (Rs := Rs) (g := g) hs hp h.a.ne' i v
  have back : ∀ i v, Diode (IL * p) (I0 * p) (Rs * (s / p)) (g * (p / s)) (a * s) i v → Diode IL I0 Rs g a (i / p) (v / s) := by
    intro i v hd
    rw [← A, div_mul_cancel₀ _ hp.ne', div_mul_cancel₀ _ hs.ne']
    exact hd
  have q1 : isc' = isc * p := (diode_unique h' d1' (by have := (A _ _).mpr d1; rwa [zero_mul] at this)).1 rfl
  have q2 : voc' = voc * s := (diode_unique h' d2' (by have := (A _ _).mpr d2; rwa [zero_mul] at this)).2.1 rfl
  obtain ⟨q3, q4⟩ := mpp_unique h' (mul_pos hIL hp) d3' ((A _ _).mpr d3) (by
    intro i v hd
    have := dm _ _ (back i v hd)
    have e : v / s * (i / p) = i * v / (p * s) := by field_simp
    rw [e, div_le_iff₀ (by positivity)] at this
    linarith) (fun j w hd => by have := dm' j w hd; linarith)
  have q5 : ix' = ix * p := (diode_unique h' d4' ((A _ _).mpr d4)).1 (by rw [q2]; ring)
  have q6 : ixx' = ixx * p := (diode_unique h' d5' ((A _ _).mpr d5)).1 (by rw [q2, q4]; ring)
  refine ⟨⟨fin isc, fin voc, fin imp, fin vmp, fin (vmp * imp), fin ix, fin ixx⟩,
    ⟨fin (isc * p), fin (voc * s), fin (imp * p), fin (vmp * s), fin (vmp * s * (imp * p)), fin (ix * p), fin (ixx * p)⟩, ?_, ?_, ?_⟩
  · simp only [singlediode, el, if_true, hc, e1, e2, e3, e4, e5, e6, e7]
  · simp only [singlediode, el, if_true, arrayOf_fin, hc', e1', e2', e3', e4', e5', e6', e7', q1, q2, q3, q4, q5, q6]
  · have em : vmp * s * (imp * p) = vmp * imp * s * p := by ring
    rw [em]
    simp [scaleVoltageCurrentPower, frameOf, filterMap]
    exact ⟨rfl, rfl, rfl, rfl, rfl, rfl⟩

private theorem demo_sane : Sane 6 5e-10 0.5 (1 / 300) 1.5 := by constructor <;> norm_num
private theorem demo_cond : Conductance (fin 300) (1 / 300) := .inl ⟨300, rfl, by norm_num, rfl⟩

/-- 2 strings of 20 modules. -/
example := array_singlediode (s := 20) (p := 2) exists_good.choose_spec demo_sane (by norm_num) demo_cond (by norm_num) (by norm_num)
example := array_v_from_i (s := 20) (p := 2) exists_good.choose_spec demo_sane demo_cond (by norm_num) (by norm_num) (by norm_num) 5
example := array_i_from_v (s := 20) (p := 2) exists_good.choose_spec demo_sane demo_cond (by norm_num) (by norm_num) 30

/-- **C193**: the same for the explicit approximation `batzelis`, for every W and every photocurrent, also without light: voltages times
`s`, currents times `p`, power times both. -/
theorem array_batzelis (W : Fl → Fl) (hI0 : 0 < I0) (hRs : 0 ≤ Rs) {r : ℝ} (hr : 0 < r) (hs : 0 < s) (hp : 0 < p)
    (hw : ∃ w : ℝ, w ≠ 0 ∧ W (fin (Real.exp 1 * IL / I0)) = fin w) :
    ∃ f, arrayOf s p ⟨fin IL, fin I0, fin Rs, fin r, fin a⟩ = f ∧ ∃ o o', batzelis W (fin IL) (fin I0) (fin Rs) (fin r) (fin a) = o ∧
      batzelis W f.IL f.I0 f.Rs f.Rsh f.nNsVth = o' ∧
      o'.v_oc = o.v_oc * fin s ∧ o'.v_mp = o.v_mp * fin s ∧ o'.i_sc = o.i_sc * fin p ∧ o'.i_mp = o.i_mp * fin p ∧
      o'.p_mp = o.p_mp * fin s * fin p := by
  refine ⟨_, rfl, _, _, rfl, rfl, ?_⟩
  obtain ⟨w, hw0, hw⟩ := hw
  have hpos : ((0 : Fl) < fin IL) ↔ 0 < IL := by rw [zero_eq, fin_lt]
  have hpos' : ((0 : Fl) < fin (IL * p)) ↔ 0 < IL := by rw [zero_eq, fin_lt]; exact mul_pos_iff_of_pos_right hp
  have hd : Rs / r + 1 ≠ 0 := by positivity
  have er : Rs * (s / p) / (r * (s / p)) = Rs / r := by field_simp
  have ew : Real.exp 1 * (IL * p) / (I0 * p) = Real.exp 1 * IL / I0 := by field_simp
  have el : IL * p / (I0 * p) = IL / I0 := by field_simp
  have hr' : r * (s / p) ≠ 0 := by positivity
  simp only [arrayOf_fin, fin_mul]
  by_cases hI : 0 < IL
  · have hq : 0 < IL / I0 := by positivity
    simp only [batzelis, npwhere, hpos, hpos', hI, if_true, fin_mul, fin_div hr', fin_div hr.ne', er, one_eq, fin_add, fin_div hd, fin_sub,
      fin_div (mul_pos hI0 hp).ne', fin_div hI0.ne', ew, hw, el, fin_div hw0, log_fin hq, fin_inj]
    refine ⟨by ring, ?_, by field_simp, ?_, ?_⟩
    all_goals field_simp
  · have h1 : ¬ (0 : Fl) < fin IL := fun hh => hI (hpos.mp hh)
    have h2 : ¬ (0 : Fl) < fin (IL * p) := fun hh => hI (hpos'.mp hh)
    simp only [batzelis, npwhere, if_neg h1, if_neg h2]
    simp

example := array_batzelis (IL := 6) (I0 := 5e-10) (Rs := 0.5) (a := 1.5) (r := 300) (s := 20) (p := 2) (fun _ => fin 20) (by norm_num) (by norm_num)
  (by norm_num) (by norm_num) (by norm_num) ⟨20, by norm_num, rfl⟩

/-! ### C194: a better module yields more -/

/-- No parameter is worse: more photocurrent, less saturation current, less series resistance, less shunt conductance, a larger
thermal voltage. -/
structure Better (IL I0 Rs g a IL' I0' Rs' g' a' : ℝ) : Prop where
  IL : IL ≤ IL'
  I0 : I0' ≤ I0
  Rs : Rs' ≤ Rs
  g : g' ≤ g
  a : a ≤ a'

/-- **C194**: at every voltage from 0 to open circuit the better module gives at least as much current. -/
theorem better_current {IL' I0' Rs' g' a' i i' v : ℝ} (h : Sane IL I0 Rs g a) (h' : Sane IL' I0' Rs' g' a')
    (hb : Better IL I0 Rs g a IL' I0' Rs' g' a') (hv : 0 ≤ v) (hi : 0 ≤ i) (hd : Diode IL I0 Rs g a i v)
    (hd' : Diode IL' I0' Rs' g' a' i' v) : i ≤ i' := by
  by_contra hlt
  push Not at hlt
  unfold Diode at hd hd'
  by_cases hi' : 0 ≤ v + i' * Rs'
  · have k1 : i' * Rs' ≤ i * Rs := by
      by_cases h0 : 0 ≤ i'
      · exact mul_le_mul hlt.le hb.Rs h'.Rs hi
      · push Not at h0
        exact (mul_nonpos_of_nonpos_of_nonneg h0.le h'.Rs).trans (mul_nonneg hi h.Rs)
    have k2 : v + i' * Rs' ≤ v + i * Rs := by linarith
    have k3 : (v + i' * Rs') / a' ≤ (v + i * Rs) / a := div_le_div₀ (hi'.trans k2) k2 h.a hb.a
    have k4 : Real.exp ((v + i' * Rs') / a') - 1 ≤ Real.exp ((v + i * Rs) / a) - 1 := by linarith [Real.exp_le_exp.mpr k3]
    have k5 : 0 ≤ Real.exp ((v + i' * Rs') / a') - 1 := by
      have := Real.add_one_le_exp ((v + i' * Rs') / a')
      have := div_nonneg hi' h'.a.le
      linarith
    have k6 : I0' * (Real.exp ((v + i' * Rs') / a') - 1) ≤ I0 * (Real.exp ((v + i * Rs) / a) - 1) := mul_le_mul hb.I0 k4 k5 h.I0.le
    have k7 : (v + i' * Rs') * g' ≤ (v + i * Rs) * g := mul_le_mul k2 hb.g h'.g (hi'.trans k2)
    linarith [hb.IL]
  · push Not at hi'
    have k1 : Real.exp ((v + i' * Rs') / a') ≤ 1 := Real.exp_le_one_iff.mpr (div_nonpos_of_nonpos_of_nonneg hi'.le h'.a.le)
    have k2 : I0' * (Real.exp ((v + i' * Rs') / a') - 1) ≤ 0 := mul_nonpos_of_nonneg_of_nonpos h'.I0.le (by linarith)
    have k3 : (v + i' * Rs') * g' ≤ 0 := mul_nonpos_of_nonpos_of_nonneg hi'.le h'.g
    have k4 : i' * Rs' < 0 := by linarith
    have k5 : i' < 0 := by
      by_contra h0
      push Not at h0
      exact absurd (mul_nonneg h0 h'.Rs) (not_le.mpr k4)
    linarith [h'.IL]

/-- **C194**: `singlediode` of the better module returns at least the short-circuit current, the open-circuit voltage and the maximum
power of the other. -/
theorem better_points {IL' I0' Rs' g' a' : ℝ} {Rsh' : Fl} (hn : Good n) (h : Sane IL I0 Rs g a) (h' : Sane IL' I0' Rs' g' a') (hIL : 0 < IL)
    (hg : Conductance Rsh g) (hg' : Conductance Rsh' g') (hb : Better IL I0 Rs g a IL' I0' Rs' g' a') :
    ∃ o o', singlediode n ⟨fin IL, fin I0, fin Rs, Rsh, fin a⟩ = .ok o ∧ singlediode n ⟨fin IL', fin I0', fin Rs', Rsh', fin a'⟩ = .ok o' ∧
      o.i_sc ≤ o'.i_sc ∧ o.v_oc ≤ o'.v_oc ∧ o.p_mp ≤ o'.p_mp := by
  have el : pyLower "lambertw" = "lambertw" := by decide +kernel
  obtain ⟨isc, voc, imp, vmp, ix, ixx, c, hc, e1, e2, e3, e4, e5, e6, e7, d1, d2, d3, d4, d5, dm, p1, p2, p3, p4, p5, -⟩ :=
    lambertw_points (ovf := n.ovf) h hIL hg hn.W hn.LW hn.fmin none
  obtain ⟨isc', voc', imp', vmp', ix', ixx', c', hc', e1', e2', e3', e4', e5', e6', e7', d1', d2', d3', d4', d5', dm', -⟩ :=
    lambertw_points (ovf := n.ovf) h' (hIL.trans_le hb.IL) hg' hn.W hn.LW hn.fmin none
  refine ⟨_, _, by simp only [singlediode, el, if_true, hc, e1, e2, e3, e4, e5, e6, e7]; rfl,
    by simp only [singlediode, el, if_true, hc', e1', e2', e3', e4', e5', e6', e7']; rfl, ?_, ?_, ?_⟩
  · rw [fin_le]
    exact better_current h h' hb le_rfl (by linarith) d1 d1'
  · rw [fin_le]
    obtain ⟨j, -, hj⟩ := iFromV_solves h' hg' hn.W voc
    have hj0 : 0 ≤ j := better_current h h' hb (by linarith) le_rfl d2 hj
    by_contra hlt
    push Not at hlt
    have := (diode_unique h' d2' hj).2.2.mp hlt
    linarith
  · rw [fin_le]
    obtain ⟨j, -, hj⟩ := iFromV_solves h' hg' hn.W vmp
    have hj0 : imp ≤ j := better_current h h' hb p1.le (by linarith) d3 hj
    exact (mul_le_mul_of_nonneg_left hj0 p1.le).trans (dm' _ _ hj)

/-- Half the series resistance, no shunt. -/
example := better_points (IL' := 6) (I0' := 5e-10) (Rs' := 0.25) (g' := 0) (a' := 1.5) (Rsh' := pinf) exists_good.choose_spec demo_sane
  (by constructor <;> norm_num) (by norm_num) demo_cond (.inr ⟨rfl, rfl⟩) (by constructor <;> norm_num)

end Pvlib.Props.ArrayScaling
end
