import Verif.Props.CalcParams

/-! # Property C78: `pvsystem.singlediode`, `i_from_v`, `v_from_i`, `max_power_point` -/

noncomputable section
open scoped Classical
namespace Pvlib.Props.PvDiode
open Fl Pvlib.SingleDiode Pvlib.PvFunctions Pvlib.Props.LambertW Pvlib.Props.SingleDiode Pvlib.Props.CalcParams

/-- The numerical routines do what they promise: exact Lambert W, a minimiser that is exact on unimodal functions, and a
bracketing `brentq` that returns a root. -/
structure Good (n : Numerics) : Prop where
  W : IsLambertW n.W
  LW : IsLogLambertW n.LW
  fmin : MinimisesUnimodal n.fmin
  brentq : Brackets n.s.brentq

/-- Such routines exist. -/
theorem exists_good : ∃ n, Good n := by
  obtain ⟨W, hW⟩ := exists_isLambertW
  obtain ⟨LW, hLW⟩ := exists_isLogLambertW
  obtain ⟨fm, hf⟩ := exists_minimisesUnimodal
  obtain ⟨b, hb⟩ := exists_brackets
  exact ⟨⟨W, LW, fun _ => False, fm, ⟨b, fun _ _ _ => .error .runtimeError, b⟩⟩, hW, hLW, hf, hb⟩

private theorem toLower_idem (c : Char) : c.toLower.toLower = c.toLower := by
  unfold Char.toLower
  split
  · rename_i h
    split
    · rename_i h'
      exfalso
      have h1 : c.val.toNat ≥ 65 ∧ c.val.toNat ≤ 90 := by
        constructor
        · exact h.1
        · exact h.2
      have h2 : ((c.val + 32).toNat ≥ 65) ∧ ((c.val + 32).toNat ≤ 90) := ⟨h'.1, h'.2⟩
      have h3 : (c.val + 32).toNat = c.val.toNat + 32 := by
        rw [UInt32.toNat_add]
        have : (32 : UInt32).toNat = 32 := rfl
        omega
      omega
    · rfl
  · rfl

theorem pyLower_idem (s : String) : pyLower (pyLower s) = pyLower s := by
  unfold pyLower
  simp [List.map_map, Function.comp_def, toLower_idem]

variable {IL I0 Rs g a : ℝ} {Rsh : Fl} {n : Numerics}

theorem matches_params (h : Sane IL I0 Rs g a) (hg : Conductance Rsh g) :
    Matches (params ⟨fin IL, fin I0, fin Rs, Rsh, fin a⟩) (cell IL I0 Rs g a) := by
  have h5 : ¬ (5.5 : ℝ) = 0 := by norm_num
  have hg' := hg
  unfold Conductance at hg'
  constructor <;> simp_all [params, cell, h.a.ne']

/-- **C78**: names of methods are case-insensitive in all four functions. -/
theorem case_insensitive (n : Numerics) (f : Five) (x d b : Fl) (s s' : String) (h : pyLower s = pyLower s') :
    singlediode n f s = singlediode n f s' ∧ iFromV n x f s = iFromV n x f s' ∧ vFromI n x f s = vFromI n x f s' ∧
    maxPowerPoint n.s f d b s = maxPowerPoint n.s f d b s' := by
  simp only [singlediode, iFromV, vFromI, maxPowerPoint, h, and_self]

example (n : Numerics) (f : Five) (x d b : Fl) := case_insensitive n f x d b "NEWTON" "Newton" (by decide +kernel)

/-- **C78**: any name other than lambertw, newton, brentq, chandrupatla raises NotImplementedError. -/
theorem unknown_method (n : Numerics) (f : Five) (x : Fl) (s : String)
    (h : pyLower s ∉ ["lambertw", "newton", "brentq", "chandrupatla"]) :
    singlediode n f s = .error .notImplementedError ∧ iFromV n x f s = .error .notImplementedError ∧
    vFromI n x f s = .error .notImplementedError ∧
    (∀ d b, maxPowerPoint n.s f d b s = .error .notImplementedError) := by
  simp only [List.mem_cons, List.not_mem_nil, or_false, not_or] at h
  obtain ⟨h1, h2, h3, h4⟩ := h
  refine ⟨?_, ?_, ?_, fun d b => ?_⟩ <;>
    simp only [singlediode, iFromV, vFromI, maxPowerPoint, bishop88VFromI, bishop88IFromV, bishop88Mpp, solveVd, pyLower_idem, h1,
      h2, h3, h4, if_false]

example (n : Numerics) (f : Five) (x : Fl) := unknown_method n f x "secant" (by decide +kernel)

/-- **C78**: `max_power_point` knows no Lambert W method. -/
theorem max_power_point_lambertw (n : Numerics) (f : Five) (d b : Fl) :
    maxPowerPoint n.s f d b "lambertw" = .error .notImplementedError := by
  have e : pyLower "lambertw" = "lambertw" := by decide +kernel
  simp only [maxPowerPoint, bishop88Mpp, solveVd, e]
  simp

/-- **C78**: `max_power_point`, with or without recombination losses, returns the point of largest power on the curve of
the equation including those losses, whichever method is used. -/
theorem max_power_point_max {c : Cell} (hc : Physical c) (s : Solvers) (hs : Roots c s) (hV : c.Vbr = -5.5)
    (hm : c.m = 3.28) (R : Fl) (hR : (∃ r, R = fin r ∧ r ≠ 0 ∧ c.g = 1 / r) ∨ (R = pinf ∧ c.g = 0)) (method : String)
    (o : Point)
    (ho : maxPowerPoint s ⟨fin c.IL, fin c.I0, fin c.Rs, R, fin c.a⟩ (fin c.D) (fin c.B) method = .ok o) :
    ∃ i v, o = ⟨fin i, fin v, fin (i * v)⟩ ∧ c.Solves i v ∧ ∀ j w, c.Solves j w → j * w ≤ i * v := by
  refine Exists.imp (fun i => Exists.imp fun v h => ?_) (mpp_is_max (p := { params ⟨fin c.IL, fin c.I0, fin c.Rs, R, fin c.a⟩ with
    d2mutau := fin c.D, NsVbi := fin c.B }) ?_ hc s hs _ o ho)
  · exact ⟨h.1, h.2.1, h.2.2.2.2⟩
  · have h5 : ¬ (5.5 : ℝ) = 0 := by norm_num
    constructor <;> simp_all [params, hc.a.ne', hc.F]

/-- Routines as required exist for a 6 A module; whatever method gives an answer gives the maximum. -/
theorem exists_good_roots : ∃ n, Good n ∧ Roots (cell 6 5e-10 0.5 (1 / 300) 1.5) n.s := by
  obtain ⟨n, hn⟩ := exists_good
  obtain ⟨s, h1, h2⟩ := exists_roots
  exact ⟨{ n with s := s }, ⟨hn.W, hn.LW, hn.fmin, h1⟩, h2⟩

example : ∃ n : Numerics, ∀ o, maxPowerPoint n.s ⟨fin 6, fin 5e-10, fin 0.5, fin 300, fin 1.5⟩ (fin 0) (fin 0) "newton" = .ok o →
    ∃ i v, o = ⟨fin i, fin v, fin (i * v)⟩ := by
  obtain ⟨n, -, h⟩ := exists_good_roots
  refine ⟨n, fun o ho => ?_⟩
  obtain ⟨i, v, e, -⟩ := max_power_point_max demo_physical n.s h rfl rfl (fin 300) (.inl ⟨300, rfl, by norm_num, rfl⟩) "newton" o ho
  exact ⟨i, v, e⟩

/-- **C78**: whichever method is asked for, if `singlediode` returns at all (and a root finder that returns, returns a
root) it returns the same seven points, those of the Lambert W method. -/
theorem singlediode_agree (hn : Good n) (h : Sane IL I0 Rs g a) (hIL : 0 < IL) (hg : Conductance Rsh g)
    (hr : Roots (cell IL I0 Rs g a) n.s) (method : String) (o : SevenPoints)
    (ho : singlediode n ⟨fin IL, fin I0, fin Rs, Rsh, fin a⟩ method = .ok o) :
    singlediode n ⟨fin IL, fin I0, fin Rs, Rsh, fin a⟩ "lambertw" = .ok o := by
  have el : pyLower "lambertw" = "lambertw" := by decide +kernel
  have hp := physical_cell h
  have hm := matches_params h hg
  by_cases hl : pyLower method = "lambertw"
  · rw [← ho]
    exact (case_insensitive n _ nan nan nan _ _ (el.trans hl.symm)).1
  obtain ⟨isc, voc, imp, vmp, ix, ixx, c, hc, e1, e2, e3, e4, e5, e6, e7, d1, d2, d3, d4, d5, dm, p1, p2, p3, p4, p5, -⟩ :=
    lambertw_points (ovf := n.ovf) h hIL hg hn.W hn.LW hn.fmin none
  simp only [singlediode, hl, if_false] at ho
  simp only [singlediode, el, if_true, hc, e1, e2, e3, e4, e5, e6, e7]
  split at ho
  · exact absurd ho (by simp)
  rename_i v_oc hvoc
  split at ho
  · exact absurd ho (by simp)
  rename_i mp hmp
  split at ho
  · exact absurd ho (by simp)
  rename_i i_sc hisc
  split at ho
  · exact absurd ho (by simp)
  rename_i i_x hix
  split at ho
  · exact absurd ho (by simp)
  rename_i i_xx hixx
  rw [zero_eq] at hvoc hisc
  obtain ⟨v, rfl, hv, -⟩ := vFromI_unique hm hp n.s hr _ _ _ hvoc
  obtain ⟨i, rfl, hi, -⟩ := iFromV_unique hm hp n.s hr _ _ _ hisc
  obtain ⟨im, vm, rfl, hs, -, -, hmx⟩ := mpp_is_max hm hp n.s hr _ _ hmp
  rw [ofNat_eq, fin_div (by norm_num)] at hix
  simp only at hixx
  rw [ofNat_eq, fin_add, fin_div (by norm_num)] at hixx
  obtain ⟨x, rfl, hx, -⟩ := iFromV_unique hm hp n.s hr _ _ _ hix
  obtain ⟨xx, rfl, hxx, -⟩ := iFromV_unique hm hp n.s hr _ _ _ hixx
  simp only [solves_cell] at hv hi hs hmx hx hxx
  have q1 : v = voc := (diode_unique h hv d2).2.1 rfl
  have q2 : i = isc := (diode_unique h hi d1).1 rfl
  obtain ⟨q3, q4⟩ := mpp_unique h hIL hs d3 (fun i v hd => by have := dm i v hd; linarith) (fun j w hd => hmx j w hd)
  subst q1 q2 q3 q4
  have q5 : x = ix := (diode_unique h hx d4).1 rfl
  have q6 : xx = ixx := (diode_unique h hxx d5).1 rfl
  subst q5 q6
  rw [← ho, mul_comm]

private theorem demo_sane : Sane 6 5e-10 0.5 (1 / 300) 1.5 := by constructor <;> norm_num
private theorem demo_cond : Conductance (fin 300) (1 / 300) := Or.inl ⟨300, rfl, by norm_num, rfl⟩
example : ∃ n : Numerics, ∀ o, singlediode n ⟨fin 6, fin 5e-10, fin 0.5, fin 300, fin 1.5⟩ "newton" = .ok o →
    singlediode n ⟨fin 6, fin 5e-10, fin 0.5, fin 300, fin 1.5⟩ "lambertw" = .ok o := by
  obtain ⟨n, hn, h⟩ := exists_good_roots
  exact ⟨n, fun o => singlediode_agree hn demo_sane (by norm_num) demo_cond h "newton" o⟩

/-- **C78**: with `brentq` the call does return: same result as the Lambert W method. -/
theorem singlediode_brentq (hn : Good n) (h : Sane IL I0 Rs g a) (hIL : 0 < IL) (hg : Conductance Rsh g) :
    singlediode n ⟨fin IL, fin I0, fin Rs, Rsh, fin a⟩ "brentq" = singlediode n ⟨fin IL, fin I0, fin Rs, Rsh, fin a⟩ "lambertw" := by
  have el : pyLower "lambertw" = "lambertw" := by decide +kernel
  have eb : pyLower "brentq" = "brentq" := by decide +kernel
  have eb' : ¬ ("brentq" = "lambertw") := by decide
  have hp := physical_cell h
  have hm := matches_params h hg
  obtain ⟨isc, voc, imp, vmp, ix, ixx, c, hc, e1, e2, e3, e4, e5, e6, e7, d1, d2, d3, d4, d5, dm, p1, p2, p3, p4, p5, -⟩ :=
    lambertw_points (ovf := n.ovf) h hIL hg hn.W hn.LW hn.fmin none
  have hD : ¬ 0 < (cell IL I0 Rs g a).D := by simp [cell]
  have hB : ¬ 0 < (cell IL I0 Rs g a).D → (params ⟨fin IL, fin I0, fin Rs, Rsh, fin a⟩).NsVbi = pinf := fun _ => rfl
  have hvb : voc ≤ (cell IL I0 Rs g a).voc :=
    (voc_bound hp (fun hD' => absurd hD' hD)).2.2.2 _ ((solves_cell ..).mpr d2)
  have hc0 := (current_zero_nonneg hp).2.1
  have solveI : ∀ v i, 0 ≤ v → v ≤ voc → Diode IL I0 Rs g a i v →
      bishop88IFromV n.s (fin v) (params ⟨fin IL, fin I0, fin Rs, Rsh, fin a⟩) "brentq" = .ok (fin i) := by
    intro v i h0 h1 hd
    obtain ⟨i', hi', hs⟩ := brentq_iFromV hm hp hB n.s hn.brentq v h0 (Or.inr ⟨hD, h1.trans hvb⟩)
    rw [hi', (diode_unique h ((solves_cell ..).mp hs) hd).1 rfl]
  have a1 : bishop88VFromI n.s (fin 0) (params ⟨fin IL, fin I0, fin Rs, Rsh, fin a⟩) "brentq" = .ok (fin voc) := by
    obtain ⟨v, hv, hs⟩ := brentq_vFromI hm hp hB n.s hn.brentq 0 (Or.inr ⟨hD, le_rfl⟩) hc0
    rw [hv, (diode_unique h ((solves_cell ..).mp hs) d2).2.1 rfl]
  have a2 : bishop88Mpp n.s (params ⟨fin IL, fin I0, fin Rs, Rsh, fin a⟩) "brentq" = .ok ⟨fin imp, fin vmp, fin (imp * vmp)⟩ := by
    obtain ⟨i, v, hr, hs, hmx⟩ := brentq_mpp hm hp hB n.s hn.brentq (Or.inr hD)
    simp only [solves_cell] at hs hmx
    obtain ⟨q3, q4⟩ := mpp_unique h hIL hs d3 (fun i v hd => by have := dm i v hd; linarith) (fun j w hd => hmx j w hd)
    rw [hr, q3, q4]
  have a3 := solveI 0 isc le_rfl (by linarith) d1
  have a4 := solveI (voc / 2) ix (by linarith) (by linarith) d4
  have a5 := solveI ((voc + vmp) / 2) ixx (by linarith) (by linarith) d5
  have t2 : (2 : ℝ) ≠ 0 := by norm_num
  simp only [singlediode, el, eb, eb', if_true, if_false, hc, e1, e2, e3, e4, e5, e6, e7, zero_eq, ofNat_eq, a1, a2, fin_add,
    fin_div t2, a3, a4, a5]
  rw [mul_comm]

example := singlediode_brentq exists_good.choose_spec demo_sane (by norm_num) demo_cond

/-- **C78**: `i_from_v` and `v_from_i` give the same value by every method that returns one. -/
theorem from_agree (hn : Good n) (h : Sane IL I0 Rs g a) (hg : Conductance Rsh g) (hg0 : 0 < g)
    (hr : Roots (cell IL I0 Rs g a) n.s) (x : ℝ) (method : String) (y : Fl) :
    (iFromV n (fin x) ⟨fin IL, fin I0, fin Rs, Rsh, fin a⟩ method = .ok y →
      ∃ i, y = fin i ∧ Diode IL I0 Rs g a i x) ∧
    (vFromI n (fin x) ⟨fin IL, fin I0, fin Rs, Rsh, fin a⟩ method = .ok y →
      ∃ v, y = fin v ∧ Diode IL I0 Rs g a x v) := by
  have hp := physical_cell h
  have hm := matches_params h hg
  constructor <;> intro hy
  · unfold iFromV at hy
    split at hy
    · obtain ⟨i, hi, hd⟩ := iFromV_solves h hg hn.W x
      simp only [Except.ok.injEq] at hy
      exact ⟨i, by rw [← hy, hi], hd⟩
    · obtain ⟨i, hi, hd, -⟩ := iFromV_unique hm hp n.s hr _ _ _ hy
      exact ⟨i, hi, (solves_cell ..).mp hd⟩
  · unfold vFromI at hy
    split at hy
    · obtain ⟨i, hi, hd⟩ := vFromI_solves (ovf := n.ovf) h hg hg0 hn.W hn.LW x
      simp only [Except.ok.injEq] at hy
      exact ⟨i, by rw [← hy, hi], hd⟩
    · obtain ⟨i, hi, hd, -⟩ := vFromI_unique hm hp n.s hr _ _ _ hy
      exact ⟨i, hi, (solves_cell ..).mp hd⟩

example := from_agree exists_good_roots.choose_spec.1 demo_sane demo_cond (by norm_num) exists_good_roots.choose_spec.2 20 "newton"

/-! ### End to end: irradiance and temperature to power -/

/-- **C78**: for a De Soto module in the light (any temperature keeping the light current positive) `singlediode` of
`calcparams_desoto` returns a positive maximum power, which no point of the module's curve exceeds; without light
short-circuit current and open-circuit voltage are zero. -/
theorem desoto_power (hn : Good n) {m : Module} (hm : m.Ok) {G T : ℝ} (hT : 0 < kelvin T)
    (hI : 0 < m.IL + m.alpha * (T - m.T0)) :
    (0 < G → ∃ o p, singlediode n (desoto m G T) = .ok o ∧ o.p_mp = fin p ∧ 0 < p ∧
      ∃ IL I0 g a R, desoto m G T = ⟨fin IL, fin I0, fin m.Rs, R, fin a⟩ ∧ Conductance R g ∧
        ∀ i v, Diode IL I0 m.Rs g a i v → v * i ≤ p) ∧
    (∃ o, singlediode n (desoto m 0 T) = .ok o ∧ o.i_sc = fin 0 ∧ o.v_oc = fin 0) := by
  have el : pyLower "lambertw" = "lambertw" := by decide +kernel
  constructor
  · intro hG
    obtain ⟨IL, I0, g, a, R, hd, hc, hs, hp, -⟩ := desoto_sane hm hG.le hT hI
    obtain ⟨isc, voc, imp, vmp, ix, ixx, c, hc', e1, e2, e3, e4, e5, e6, e7, -, -, -, -, -, dm, p1, p2, p3, p4, p5, -⟩ :=
      lambertw_points (ovf := n.ovf) hs (hp hG).1 hc hn.W hn.LW hn.fmin none
    refine ⟨⟨fin isc, fin voc, fin imp, fin vmp, fin (vmp * imp), fin ix, fin ixx⟩, vmp * imp, ?_, rfl, mul_pos p1 (p3.trans p4),
      IL, I0, g, a, R, hd, hc, dm⟩
    simp only [singlediode, el, if_true, hd, hc', e1, e2, e3, e4, e5, e6, e7]
  · obtain ⟨IL, I0, g, a, R, hd, hc, hs, -, h0⟩ := desoto_sane hm le_rfl hT hI
    obtain ⟨rfl, -⟩ := h0 rfl
    obtain ⟨k1, k2⟩ := lambertw_dark (ovf := n.ovf) hs hc hn.W hn.LW n.fmin none
    have e : singlediode n (desoto m 0 T) = .ok (
        let o := lambertw n.W n.LW n.ovf n.fmin (fin 0) (fin I0) (fin m.Rs) R (fin a) none
        ⟨o.i_sc, o.v_oc, o.i_mp, o.v_mp, o.p_mp, o.i_x, o.i_xx⟩) := by
      simp only [singlediode, el, if_true, hd]
    exact ⟨_, e, k1, k2⟩

example := desoto_power exists_good.choose_spec example_ok (G := 800) (T := 40) (by norm_num [kelvin]) (by norm_num [exampleModule])

/-- **C78**: more light, more current at any positive operating point. -/
theorem current_increases {i1 g1 G G' i v : ℝ} (hI0 : 0 < I0) (hRs : 0 ≤ Rs) (hg1 : 0 ≤ g1) (ha : 0 < a) (hi : 0 < i)
    (hv : 0 ≤ v) (hG : 0 < G) (hGG : G < G') (hd : Diode (G * i1) I0 Rs (G * g1) a i v) {i' : ℝ}
    (hd' : Diode (G' * i1) I0 Rs (G' * g1) a i' v) : i < i' := by
  unfold Diode at hd hd'
  set x := v + i * Rs with hx
  set x' := v + i' * Rs with hx'
  have hx0 : 0 ≤ x := by positivity
  have he : 1 ≤ Real.exp (x / a) := Real.one_le_exp (by positivity)
  have hpos : 0 < G * (i1 - x * g1) := by
    have := mul_nonneg hI0.le (sub_nonneg.mpr he)
    nlinarith
  have hpos' : 0 < i1 - x * g1 := (mul_pos_iff_of_pos_left hG).mp hpos
  by_contra hle
  push Not at hle
  have hxx : x' ≤ x := by rw [hx, hx']; nlinarith
  have he' : Real.exp (x' / a) ≤ Real.exp (x / a) := Real.exp_le_exp.mpr (div_le_div_of_nonneg_right hxx ha.le)
  have k1 := mul_le_mul_of_nonneg_left he' hI0.le
  have k2 : G' * (i1 - x * g1) ≤ G' * (i1 - x' * g1) := by
    apply mul_le_mul_of_nonneg_left _ (by linarith)
    have := mul_le_mul_of_nonneg_right hxx hg1
    linarith
  have k3 := mul_lt_mul_of_pos_right hGG hpos'
  nlinarith

/-- Two irradiances for one cell at short circuit: solutions exist (no series resistance, for simplicity). -/
example : (6:ℝ) < 9 := current_increases (I0 := 1e-9) (Rs := 0) (a := 1.5) (i1 := 3) (g1 := 0.01) (G := 2) (G' := 3) (v := 0)
  (by norm_num) (by norm_num) (by norm_num) (by norm_num) (by norm_num) (by norm_num) (by norm_num) (by norm_num)
  (by norm_num [Diode]) (by norm_num [Diode])

/-- **C78**: at a given temperature the maximum power of a De Soto module grows strictly with irradiance. -/
theorem desoto_power_strictMono (hn : Good n) {m : Module} (hm : m.Ok) {G G' T : ℝ} (hG : 0 < G) (hGG : G < G')
    (hT : 0 < kelvin T) (hI : 0 < m.IL + m.alpha * (T - m.T0)) :
    ∃ o o' p p', singlediode n (desoto m G T) = .ok o ∧ singlediode n (desoto m G' T) = .ok o' ∧ o.p_mp = fin p ∧
      o'.p_mp = fin p' ∧ p < p' := by
  have el : pyLower "lambertw" = "lambertw" := by decide +kernel
  have hG' := hG.trans hGG
  have val : ∀ G, 0 < G → ∃ R, desoto m G T = ⟨fin (G * ((m.IL + m.alpha * (T - m.T0)) / m.G0)), fin (m.sat T), fin m.Rs, R,
      fin (m.aref * (kelvin T / kelvin m.T0))⟩ ∧ Conductance R (G * (1 / (m.Rsh * m.G0))) ∧
      Sane (G * ((m.IL + m.alpha * (T - m.T0)) / m.G0)) (m.sat T) m.Rs (G * (1 / (m.Rsh * m.G0)))
        (m.aref * (kelvin T / kelvin m.T0)) := by
    intro G hG
    obtain ⟨R, hd, hR, -⟩ := desoto_value hm G T hT
    have hr := hm.Rsh
    have hg := hm.G0
    have ht := hm.T0
    have hi := hm.I0
    have ha := hm.aref
    have hs : 0 < m.sat T := by unfold Module.sat; positivity
    refine ⟨R, ?_, Or.inl ⟨_, hR hG.ne', mul_ne_zero hr.ne' (div_ne_zero hg.ne' hG.ne'), ?_⟩, ?_⟩
    · rw [hd]; congr 2; ring
    · field_simp
    · exact ⟨by positivity, hs, hm.Rs, by positivity, by positivity⟩
  have hpos : ∀ G, 0 < G → 0 < G * ((m.IL + m.alpha * (T - m.T0)) / m.G0) := by
    intro G hG
    have := hm.G0
    positivity
  have sol : ∀ G, 0 < G → ∃ o i v, singlediode n (desoto m G T) = .ok o ∧ o.p_mp = fin (v * i) ∧ 0 < i ∧ 0 < v ∧
      Diode (G * ((m.IL + m.alpha * (T - m.T0)) / m.G0)) (m.sat T) m.Rs (G * (1 / (m.Rsh * m.G0)))
        (m.aref * (kelvin T / kelvin m.T0)) i v ∧
      ∀ i' v', Diode (G * ((m.IL + m.alpha * (T - m.T0)) / m.G0)) (m.sat T) m.Rs (G * (1 / (m.Rsh * m.G0)))
        (m.aref * (kelvin T / kelvin m.T0)) i' v' → v' * i' ≤ v * i := by
    intro G hG
    obtain ⟨R, hd, hc, hs⟩ := val G hG
    obtain ⟨isc, voc, imp, vmp, ix, ixx, c, hc', e1, e2, e3, e4, e5, e6, e7, -, -, d3, -, -, dm, p1, p2, p3, p4, p5, -⟩ :=
      lambertw_points (ovf := n.ovf) hs (hpos G hG) hc hn.W hn.LW hn.fmin none
    refine ⟨⟨fin isc, fin voc, fin imp, fin vmp, fin (vmp * imp), fin ix, fin ixx⟩, imp, vmp, ?_, rfl, p3.trans p4, p1, d3, dm⟩
    simp only [singlediode, el, if_true, hd, hc', e1, e2, e3, e4, e5, e6, e7]
  obtain ⟨o, i, v, h1, h2, h3, h4, h5, -⟩ := sol G hG
  obtain ⟨o', i', v', h1', h2', -, -, -, h6'⟩ := sol G' hG'
  obtain ⟨R', hd', hc', hs'⟩ := val G' hG'
  obtain ⟨j, -, hj⟩ := iFromV_solves hs' hc' hn.W v
  have hr := hm.Rsh
  have hg := hm.G0
  obtain ⟨-, -, -, hs0⟩ := val G hG
  have hij := current_increases hs0.I0 hm.Rs (by positivity) hs0.a h3 h4.le hG hGG h5 hj
  refine ⟨o, o', _, _, h1, h1', h2, h2', ?_⟩
  have := h6' _ _ hj
  nlinarith

/-! ### The hypotheses can be met -/

example : Sane 8 1e-10 0.3 (1 / 300) 1.5 ∧ Conductance (fin 300) (1 / 300) ∧ Conductance pinf 0 := by
  refine ⟨by constructor <;> norm_num, Or.inl ⟨300, rfl, by norm_num, rfl⟩, Or.inr ⟨rfl, rfl⟩⟩

end Pvlib.Props.PvDiode
end
