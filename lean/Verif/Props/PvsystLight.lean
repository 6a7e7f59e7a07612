import Verif.Props.ChainDiode
import Mathlib.Analysis.SpecialFunctions.ExpDeriv
import Mathlib.Analysis.Calculus.Deriv.MeanValue
import Mathlib.Analysis.Calculus.Deriv.Mul
import Mathlib.Analysis.Calculus.Deriv.Add
import Mathlib.Analysis.Complex.ExponentialBounds

/-! # Property C234: in the PVsyst model more light never gives less power, although the shunt resistance falls with it -/

noncomputable section
open scoped Classical
namespace Pvlib.Props.PvsystLight
open Fl Pvlib.SingleDiode Pvlib.PvFunctions Pvlib.Props.LambertW Pvlib.Props.SingleDiode Pvlib.Props.CalcParams Pvlib.Props.PvDiode

/-! ### The product of irradiance and shunt resistance -/

private theorem exp_le_one_add {x : ℝ} : (1 + x) ≤ Real.exp x := by linarith [Real.add_one_le_exp x]

/-- The smallest value of `exp(-u) (1-u)` is `-exp(-2)`. -/
theorem bump (u : ℝ) : -Real.exp (-2) ≤ Real.exp (-u) * (1 - u) := by
  have h := Real.add_one_le_exp (u - 2)
  have e : Real.exp (-2) = Real.exp (-u) * Real.exp (u - 2) := by rw [← Real.exp_add]; congr 1; ring
  rw [e]
  have := Real.exp_pos (-u)
  nlinarith

variable {p : PModule}

/-- The shunt resistance does not drop faster than in inverse proportion to the irradiance: the dark shunt resistance exceeds the one in strong light at most
`1 + exp 2` (about 8.4) times. -/
def Gentle (p : PModule) : Prop := p.Rsh0 ≤ (1 + Real.exp 2) * p.base

theorem shunt_product (h : p.Ok) (hb : Gentle p) : MonotoneOn (fun G => G * p.shunt G) (Set.Ici 0) := by
  have hex := h.ex
  have hG0 := h.G0
  have hr := h.Rsh0
  have hb0 : 0 ≤ p.base := le_max_left _ _
  have hd : ∀ G, HasDerivAt (fun G => G * p.shunt G)
      (p.base + (p.Rsh0 - p.base) * (Real.exp (-(p.ex * G / p.G0)) * (1 - p.ex * G / p.G0))) G := by
    intro G
    have h1 : HasDerivAt (fun G : ℝ => -p.ex * G / p.G0) (-p.ex / p.G0) G := by
      have := ((hasDerivAt_id G).const_mul (-p.ex)).div_const p.G0
      simpa using this
    have h2 := ((h1.exp.const_mul (p.Rsh0 - p.base)).const_add p.base)
    have h3 := (hasDerivAt_id G).fun_mul h2
    refine (h3.congr_deriv ?_).congr_of_eventuallyEq (Filter.Eventually.of_forall fun x => rfl)
    rw [show -p.ex * G / p.G0 = -(p.ex * G / p.G0) by ring]
    simp only [id]
    field_simp
    ring
  refine monotoneOn_of_deriv_nonneg (convex_Ici 0) (fun x _ => (hd x).continuousAt.continuousWithinAt) (fun x _ => (hd x).differentiableAt.differentiableWithinAt) ?_
  intro G hG
  rw [interior_Ici, Set.mem_Ioi] at hG
  rw [(hd G).deriv]
  set u := p.ex * G / p.G0 with hu
  have hu0 : 0 < u := by positivity
  have hE := Real.exp_pos (-u)
  have hE1 : Real.exp (-u) ≤ 1 := Real.exp_le_one_iff.mpr (by linarith)
  rcases le_total p.base p.Rsh0 with hle | hle
  · have h1 := mul_le_mul_of_nonneg_left (bump u) (sub_nonneg.mpr hle)
    have h2 : (p.Rsh0 - p.base) * Real.exp (-2) ≤ p.base := by
      have : p.Rsh0 - p.base ≤ Real.exp 2 * p.base := by unfold Gentle at hb; linarith
      have h3 := mul_le_mul_of_nonneg_right this (Real.exp_pos (-2)).le
      have h4 : Real.exp 2 * p.base * Real.exp (-2) = p.base := by
        rw [mul_right_comm, ← Real.exp_add]; norm_num
      linarith
    linarith
  · have h1 : Real.exp (-u) * (1 - u) ≤ 1 := by nlinarith
    nlinarith

/-! ### One diode -/

/-- More light, and no larger a share of it lost in the shunt: more current at any positive operating point. -/
theorem current_increases' {I0 Rs a i1 g g' G G' i v : ℝ} (hI0 : 0 < I0) (hRs : 0 ≤ Rs) (hg : 0 ≤ g') (ha : 0 < a) (hi : 0 < i)
    (hv : 0 ≤ v) (hG : 0 < G) (hGG : G < G') (hgg : G * g' ≤ G' * g) (hd : Diode (G * i1) I0 Rs g a i v) {i' : ℝ}
    (hd' : Diode (G' * i1) I0 Rs g' a i' v) : i < i' := by
  unfold Diode at hd hd'
  set x := v + i * Rs with hx
  set x' := v + i' * Rs with hx'
  have hx0 : 0 ≤ x := by positivity
  have he : 1 ≤ Real.exp (x / a) := Real.one_le_exp (by positivity)
  have hpos : 0 < G * i1 - x * g := by
    have := mul_nonneg hI0.le (sub_nonneg.mpr he)
    nlinarith
  by_contra hle
  push Not at hle
  have hxx : x' ≤ x := by rw [hx, hx']; nlinarith
  have he' : Real.exp (x' / a) ≤ Real.exp (x / a) := Real.exp_le_exp.mpr (div_le_div_of_nonneg_right hxx ha.le)
  have k1 := mul_le_mul_of_nonneg_left he' hI0.le
  have k2 : x' * g' ≤ x * g' := mul_le_mul_of_nonneg_right hxx hg
  have k3 : G * (x * g') ≤ G' * (x * g) := by nlinarith [mul_le_mul_of_nonneg_left hgg hx0]
  have k4 := mul_lt_mul_of_pos_right hGG hpos
  have k5 : G * i' ≤ G * i := mul_le_mul_of_nonneg_left hle hG.le
  nlinarith [mul_le_mul_of_nonneg_left k1 hG.le, mul_le_mul_of_nonneg_left k2 hG.le]

/-- The same cell in 2 and in 3 units of light; in the brighter one the shunt conducts no more than in proportion. -/
example : (6 : ℝ) < 9 := current_increases' (I0 := 1e-9) (Rs := 0) (a := 1.5) (i1 := 3) (g := 0.01) (g' := 0.015) (G := 2) (G' := 3) (v := 0)
  (by norm_num) (by norm_num) (by norm_num) (by norm_num) (by norm_num) (by norm_num) (by norm_num) (by norm_num) (by norm_num)
  (by norm_num [Diode]) (by norm_num [Diode])

/-! ### The module -/

/-- **C234a.** `singlediode` of `calcparams_pvsyst`: at a given cell temperature the maximum power is positive and grows strictly with the irradiance. -/
theorem pvsyst_power {n : Numerics} (hn : Good n) (h : p.Ok) (hb : Gentle p) {G G' T : ℝ} (hG : 0 < G) (hGG : G < G')
    (hT : 0 < kelvin T) (hg : 0 < p.gam T) (hI : 0 < p.IL + p.alpha * (T - p.T0)) :
    ∃ o o' P P', singlediode n (pvsyst p G T) = .ok o ∧ singlediode n (pvsyst p G' T) = .ok o' ∧ o.p_mp = fin P ∧
      o'.p_mp = fin P' ∧ 0 < P ∧ P < P' := by
  have el : pyLower "lambertw" = "lambertw" := by decide +kernel
  have hG' := hG.trans hGG
  have hG0 := h.G0
  have hi0 := h.I0
  have hT0 := h.T0
  have hNs := h.Ns
  have hq : 0 < qk := by unfold qk; norm_num
  have hS : ∀ G, 0 < G → 0 < p.shunt G := fun G hG => ((pvsyst_shunt h).2.1 G hG.le).2.2
  have hsat : 0 < p.sat T := by unfold PModule.sat; positivity
  have val : ∀ G, 0 < G → pvsyst p G T = ⟨fin (G * ((p.IL + p.alpha * (T - p.T0)) / p.G0)), fin (p.sat T), fin p.Rs, fin (p.shunt G),
      fin (p.gam T * p.Ns * kelvin T / qk)⟩ ∧ Conductance (fin (p.shunt G)) (1 / p.shunt G) ∧
      Sane (G * ((p.IL + p.alpha * (T - p.T0)) / p.G0)) (p.sat T) p.Rs (1 / p.shunt G) (p.gam T * p.Ns * kelvin T / qk) := by
    intro G hG
    have := hS G hG
    refine ⟨?_, .inl ⟨_, rfl, this.ne', rfl⟩, ⟨by positivity, hsat, h.Rs, by positivity, by positivity⟩⟩
    rw [pvsyst_value h G T hT hg.ne']
    congr 2; ring
  have sol : ∀ G, 0 < G → ∃ o i v, singlediode n (pvsyst p G T) = .ok o ∧ o.p_mp = fin (v * i) ∧ 0 < i ∧ 0 < v ∧
      Diode (G * ((p.IL + p.alpha * (T - p.T0)) / p.G0)) (p.sat T) p.Rs (1 / p.shunt G) (p.gam T * p.Ns * kelvin T / qk) i v ∧
      ∀ i' v', Diode (G * ((p.IL + p.alpha * (T - p.T0)) / p.G0)) (p.sat T) p.Rs (1 / p.shunt G) (p.gam T * p.Ns * kelvin T / qk) i' v' →
        v' * i' ≤ v * i := by
    intro G hG
    obtain ⟨hd, hc, hs⟩ := val G hG
    obtain ⟨isc, voc, imp, vmp, ix, ixx, c, hc', e1, e2, e3, e4, e5, e6, e7, -, -, d3, -, -, dm, p1, p2, p3, p4, p5, -⟩ :=
      lambertw_points (ovf := n.ovf) hs (by positivity) hc hn.W hn.LW hn.fmin none
    refine ⟨⟨fin isc, fin voc, fin imp, fin vmp, fin (vmp * imp), fin ix, fin ixx⟩, imp, vmp, ?_, rfl, p3.trans p4, p1, d3, dm⟩
    simp only [singlediode, el, if_true, hd, hc', e1, e2, e3, e4, e5, e6, e7]
  obtain ⟨o, i, v, h1, h2, h3, h4, h5, -⟩ := sol G hG
  obtain ⟨o', i', v', h1', h2', -, -, -, h6'⟩ := sol G' hG'
  obtain ⟨hd', hc', hs'⟩ := val G' hG'
  obtain ⟨j, -, hj⟩ := iFromV_solves hs' hc' hn.W v
  obtain ⟨-, -, hs⟩ := val G hG
  have hgg : G * (1 / p.shunt G') ≤ G' * (1 / p.shunt G) := by
    have h1 := hS G hG
    have h2 := hS G' hG'
    have h3 : G * p.shunt G ≤ G' * p.shunt G' := shunt_product h hb hG.le hG'.le hGG.le
    rw [mul_one_div, mul_one_div, div_le_div_iff₀ h2 h1]
    exact h3
  have hij := current_increases' hs.I0 h.Rs hs'.g hs.a h3 h4.le hG hGG hgg h5 hj
  refine ⟨o, o', _, _, h1, h1', h2, h2', by positivity, ?_⟩
  have := h6' _ _ hj
  nlinarith

/-- The example module is gentle: 1200 ohm in the dark, about 296 in strong light. -/
theorem examplep_gentle : Gentle examplePModule := by
  have h1 : Real.exp (-5.5) < 1 / 100 := by
    have h2 : (100 : ℝ) < Real.exp 5.5 := by
      have h3 : (2.7 : ℝ) < Real.exp 1 := by have := Real.exp_one_gt_d9; linarith
      have h4 : Real.exp 5 = Real.exp 1 ^ 5 := by rw [← Real.exp_nat_mul]; norm_num
      have h5 : (2.7 : ℝ) ^ 5 < Real.exp 1 ^ 5 := pow_lt_pow_left₀ h3 (by norm_num) (by norm_num)
      have h6 : Real.exp 5 ≤ Real.exp 5.5 := Real.exp_le_exp.mpr (by norm_num)
      norm_num at h5
      linarith
    rw [Real.exp_neg, inv_eq_one_div]
    exact one_div_lt_one_div_of_lt (by norm_num) h2
  have h0 := Real.exp_pos (-5.5 : ℝ)
  have h2 : (3 : ℝ) ≤ Real.exp 2 := by have := Real.add_one_le_exp (2 : ℝ); linarith
  have hb : 288 ≤ examplePModule.base := by
    refine le_max_of_le_right ?_
    show (288 : ℝ) ≤ (300 - 1200 * Real.exp (-5.5)) / (1 - Real.exp (-5.5))
    rw [le_div_iff₀ (by linarith)]
    linarith
  have he : (0 : ℝ) ≤ examplePModule.base := by linarith
  show (1200 : ℝ) ≤ (1 + Real.exp 2) * examplePModule.base
  have h3 : (6.5 : ℝ) ≤ Real.exp 2 := by
    have h4 : Real.exp 2 = Real.exp 1 ^ 2 := by rw [← Real.exp_nat_mul]; norm_num
    have h5 := Real.exp_one_gt_d9
    rw [h4]
    nlinarith
  nlinarith

example := pvsyst_power exists_good.choose_spec examplep_ok examplep_gentle (G := 500) (G' := 800) (T := 45) (by norm_num) (by norm_num) (by norm_num [kelvin])
  (by norm_num [PModule.gam, examplePModule]) (by norm_num [examplePModule])

/-! ### The chain -/

open Pvlib.Tools Pvlib.PvSystem Pvlib.ModelChain Pvlib.Props.PvSystem Pvlib.Props.ChainRun Pvlib.Props.ChainArrays Pvlib.Props.ArrayClass
  Pvlib.Props.ChainFacts Pvlib.Props.ChainTare Pvlib.Props.ChainMono Pvlib.Props.ChainDiode Pvlib.Props.Warm

/-- The keys of a module dictionary that the PVsyst model reads. -/
def keys : List String := ["gamma_ref", "mu_gamma", "I_L_ref", "I_o_ref", "R_sh_ref", "R_sh_0", "R_sh_exp", "R_s", "alpha_sc", "EgRef", "irrad_ref", "temp_ref",
  "cells_in_series"]

/-- A dictionary that holds the values of the PVsyst module `m`; the four optional ones have their documented defaults. -/
structure Describes (d : PyDict PVal) (m : PModule) : Prop where
  numbers : ∀ k ∈ keys, Numeric d k
  alpha : entry d "alpha_sc" = some (fin m.alpha)
  gamma : entry d "gamma_ref" = some (fin m.gamma)
  mu : entry d "mu_gamma" = some (fin m.mu)
  IL : entry d "I_L_ref" = some (fin m.IL)
  I0 : entry d "I_o_ref" = some (fin m.I0)
  Rsh : entry d "R_sh_ref" = some (fin m.Rsh)
  Rsh0 : entry d "R_sh_0" = some (fin m.Rsh0)
  Rs : entry d "R_s" = some (fin m.Rs)
  Ns : entry d "cells_in_series" = some (fin m.Ns)
  ex : (entry d "R_sh_exp").getD (fin 5.5) = fin m.ex
  Eg : (entry d "EgRef").getD (fin 1.121) = fin m.Eg
  G0 : (entry d "irrad_ref").getD 1000 = fin m.G0
  T0 : (entry d "temp_ref").getD 25 = fin m.T0

private theorem kwReq_of {kw : PyDict Fl} {keys : List String} {xs : List Fl} (h : keys.map (fun k => kw.get? k) = xs.map some) :
    kwReq kw keys = .ok xs := by
  induction keys generalizing xs with
  | nil => cases xs with
    | nil => rfl
    | cons x xs => simp at h
  | cons k ks ih =>
    cases xs with
    | nil => simp at h
    | cons x xs =>
      simp only [List.map_cons, List.cons.injEq] at h
      simp [kwReq, h.1, ih h.2, Except.bind]

/-- The parameters of the single diode equation of an array are those of the module it describes. -/
theorem params {a : PvArr} {m : PModule} (D : Describes a.module_parameters m) (e T : ℝ) :
    diodeParams .pvsyst a (fin e) (fin T) = .ok (pvsyst m e T) := by
  obtain ⟨kw, h1, h2⟩ := numKwargs_ok (keys := keys) (d := a.module_parameters) D.numbers
  have hx : kwReq kw ["alpha_sc", "gamma_ref", "mu_gamma", "I_L_ref", "I_o_ref", "R_sh_ref", "R_sh_0", "R_s", "cells_in_series"] =
      .ok [fin m.alpha, fin m.gamma, fin m.mu, fin m.IL, fin m.I0, fin m.Rsh, fin m.Rsh0, fin m.Rs, fin m.Ns] :=
    kwReq_of (by simp [h2, keys, D.alpha, D.gamma, D.mu, D.IL, D.I0, D.Rsh, D.Rsh0, D.Rs, D.Ns])
  unfold keys at h1 h2
  simp only [diodeParams, reduceCtorEq, if_false, pvsystOf, h1, Except.bind, hx, kwOr, h2]
  have hG := D.G0
  have hT := D.T0
  rw [ofNat_eq] at hG hT
  simp [D.Eg, D.ex, hG, hT, pvsyst]

/-- An array of gentle PVsyst modules with meaningful reference values and a non-negative number of them. -/
structure Fit (a : PvArr) (m : PModule) (n S : ℝ) : Prop where
  describes : Describes a.module_parameters m
  ok : m.Ok
  series : a.modules_per_string = fin n
  strings : a.strings = fin S
  n0 : 0 ≤ n
  S0 : 0 ≤ S

/-- **C234b.** The DC power reported for an array of PVsyst modules is the maximum power of one module at the reported effective irradiance and cell temperature, times the modules in
series, the strings and the factor of the system losses. -/
theorem dc_value {c : Chain} {s : Site} {x : Input} {r q : Results} (h : Ran c s x r q) (ho : c.ohmic = .no_loss) (hM : c.dc = some .pvsyst) {k i : ℕ} {a : PvArr}
    (ha : c.system.arrays[k]? = some a) {m : PModule} {n S : ℝ} (F : Fit a m n S) {e T : ℝ} (hl : Light q k i e T) {f : ℝ} (hf : q.losses = some (fin f)) {o : SevenPoints} {p : ℝ}
    (hs : singlediode s.numerics (pvsyst m e T) = .ok o) (hp : o.p_mp = fin p) : Column q k i "p_mp" (p * n * S * f) :=
  value_of h ho ha hM (.inr (.inr rfl)) (params F.describes e T) F.series F.strings hl hf hs hp

/-- **C234c.** At the same cell temperature a PVsyst array with more effective irradiance reports no less DC power. -/
theorem more_light {c : Chain} {s s' : Site} {x x' : Input} {r r' q q' : Results} (h : Ran c s x r q) (h' : Ran c s' x' r' q') (hs : Good s.numerics)
    (hss : s'.numerics = s.numerics) (ho : c.ohmic = .no_loss) (hM : c.dc = some .pvsyst) {k i i' : ℕ} {a : PvArr} (ha : c.system.arrays[k]? = some a) {m : PModule} {n S : ℝ}
    (F : Fit a m n S) (hb : Gentle m) {e e' T : ℝ} (hl : Light q k i e T) (hl' : Light q' k i' e' T) (h0 : 0 < e) (hee : e ≤ e') (hT : 0 < kelvin T) (hg : 0 < m.gam T)
    (hI : 0 < m.IL + m.alpha * (T - m.T0)) {f : ℝ} (hf : q.losses = some (fin f)) (f0 : 0 ≤ f) :
    ∃ P P', Column q k i "p_mp" P ∧ Column q' k i' "p_mp" P' ∧ 0 ≤ P ∧ P ≤ P' := by
  have hf' : q'.losses = some (fin f) := by rw [← same_losses h h' ha, hf]
  obtain ⟨n0, S0⟩ := And.intro F.n0 F.S0
  rcases hee.eq_or_lt with rfl | hlt
  · obtain ⟨o, o', P, P', a1, -, a3, -, a5, -⟩ := pvsyst_power hs F.ok hb h0 (show e < e + 1 by linarith) hT hg hI
    exact ⟨_, _, dc_value h ho hM ha F hl hf a1 a3, dc_value h' ho hM ha F hl' hf' (by rw [hss]; exact a1) a3, by positivity, le_rfl⟩
  · obtain ⟨o, o', P, P', a1, a2, a3, a4, a5, a6⟩ := pvsyst_power hs F.ok hb h0 hlt hT hg hI
    refine ⟨_, _, dc_value h ho hM ha F hl hf a1 a3, dc_value h' ho hM ha F hl' hf' (by rw [hss]; exact a2) a4, by positivity, ?_⟩
    gcongr

/-- **C234d.** In the same light the warmer of two runs reports no more DC power (ideality factor independent of temperature), as long as at the maximum power point of the warm module
the diodes outweigh the gain in light current. -/
theorem warmer {c : Chain} {s s' : Site} {x x' : Input} {r r' q q' : Results} (h : Ran c s x r q) (h' : Ran c s' x' r' q') (hs : Good s.numerics)
    (hss : s'.numerics = s.numerics) (ho : c.ohmic = .no_loss) (hM : c.dc = some .pvsyst) {k i i' : ℕ} {a : PvArr} (ha : c.system.arrays[k]? = some a) {m : PModule} {n S : ℝ}
    (F : Fit a m n S) (hm : m.mu = 0) {e T T' : ℝ} (hl : Light q k i e T) (hl' : Light q' k i' e T') (h0 : 0 < e) (hTT : T' ≤ T) (hT' : 0 < kelvin T')
    (hI' : 0 < m.IL + m.alpha * (T' - m.T0)) (hI : 0 < m.IL + m.alpha * (T - m.T0)) {f : ℝ} (hf : q.losses = some (fin f)) (f0 : 0 ≤ f)
    (hw : ∀ o I V, singlediode s.numerics (pvsyst m e T) = .ok o → o.i_mp = fin I → o.v_mp = fin V → Outweighs (ofPvsyst m e) T' T I V) :
    ∃ P P', Column q k i "p_mp" P ∧ Column q' k i' "p_mp" P' ∧ P ≤ P' := by
  have hf' : q'.losses = some (fin f) := by rw [← same_losses h h' ha, hf]
  obtain ⟨n0, S0⟩ := And.intro F.n0 F.S0
  obtain ⟨o', o, -, -, P', P, I, W, b1, b2, -, -, b3, b4, b5, b6, -, b7⟩ := pvsyst_falls hs F.ok hm h0 ((pvsyst_shunt F.ok).2.1 e h0.le).2.2 hT' hTT hI' hI
  have := b7 (hw o I W b2 b5 b6)
  refine ⟨_, _, dc_value h ho hM ha F hl hf b2 b4, dc_value h' ho hM ha F hl' hf' (by rw [hss]; exact b1) b3, ?_⟩
  gcongr

/-! ### Example: an array of two strings of ten modules, a bright and a dull hour, a warm and a cool one -/

open Pvlib.Props.ChainTotal Pvlib.Props.ChainWitness Pvlib.Props.ChainConfig

/-- The dictionary of a silicon module of 60 cells without temperature coefficients, in the PVsyst model. -/
def dict : PyDict PVal :=
  [("gamma_ref", .num (fin 1.05)), ("mu_gamma", .num (fin 0)), ("I_L_ref", .num (fin 8.2)), ("I_o_ref", .num (fin 1e-10)), ("R_sh_ref", .num (fin 300)),
    ("R_sh_0", .num (fin 1200)), ("R_sh_exp", .num (fin 5.5)), ("R_s", .num (fin 0.3)), ("alpha_sc", .num (fin 0)), ("EgRef", .num (fin 1.121)), ("cells_in_series", .num (fin 60))]

def module_ : PModule := { examplePModule with alpha := 0 }

def plant : System := ⟨[{ exArray with module_parameters := dict, modules_per_string := fin 10, strings := fin 2 }], demoInv, []⟩

/-- The chain that `ModelChain(plant, location, aoi_model='no_loss')` builds. -/
def chain : Chain := ⟨plant, "ineichen", "haydavies", "nrel_numpy", "kastenyoung1989", some .pvsyst, .sandia, .no_loss, .no_loss, .sapm, .no_loss, .no_loss⟩

theorem chain_built : mkChain plant { aoi_model := some "no_loss" } = .ok chain := by
  rw [chain_iff]
  refine ⟨rfl, rfl, rfl, rfl, rfl, ?_, ?_, ?_, ?_, ?_, ?_, ?_⟩
  · rw [show (⟨chain.dc, none⟩ : Assigned DcModel) = ⟨some .pvsyst, none⟩ from rfl, dc_inferred]
    refine ⟨by simp [First, dcMarks, HasAll, plant, dict, PyDict.get?], _, rfl, by simp [HasAll, plant, dict, PyDict.get?]⟩
  · rw [ac_inferred]
    simp [chain, plant, demoInv, PyDict.get?]
  · rw [aoi_named]
    decide +kernel
  · rw [spectral_cases]
    exact .inl rfl
  · rw [Pvlib.Props.ChainConfig.temp_inferred]
    simp [First, tempMarks, HasAll, chain, plant, exTemp, PyDict.get?]
  · decide +kernel
  · decide +kernel

private theorem ok : module_.Ok := by constructor <;> norm_num [module_, examplePModule, kelvin]

private theorem gentle : Gentle module_ := examplep_gentle

private theorem fit : Fit { exArray with module_parameters := dict, modules_per_string := fin 10, strings := fin 2 } module_ 10 2 := by
  refine ⟨?_, ok, rfl, rfl, by norm_num, by norm_num⟩
  constructor <;> try simp [entry, dict, PyDict.get?, module_, examplePModule]
  intro k _
  exact numeric_of (by simp) k

private theorem able (s : Site) : AblePower chain s := by
  have hk : ∀ k, Numeric exArray.temperature_model_parameters k := fun k => (exNumeric exArray (by simp [exSystem]) k).2
  refine ⟨fun a ha w _ => ?_, fun _ a ha => ?_, ⟨.pvsyst, rfl, fun a ha => ?_⟩, .inl rfl, .inl rfl, .inr ⟨rfl, by simp [chain], fun ps vs hp hv => ?_⟩⟩
  · simp only [chain, plant, List.mem_singleton] at ha
    subst ha
    exact ⟨_, temp_sapm s.sigma _ w (ca := fin (-3.56)) (cb := fin (-0.0750)) (dT := 3) (by simp [exTemp, entry, PyDict.get?]) (by simp [exTemp, entry, PyDict.get?])
      (by simp [exTemp, entry, PyDict.get?]) (hk _)⟩
  · simp only [chain, plant, List.mem_singleton] at ha
    subst ha
    exact ⟨3, getNum_of (by simp [exTemp, entry, PyDict.get?])⟩
  · refine dc_accepted_computes plant none .pvsyst ?_ ?_ a ha
    · have := ((chain_iff plant _ chain).mp chain_built).dc
      exact this
    · intro a ha k
      simp only [plant, List.mem_singleton] at ha
      subst ha
      exact numeric_of (by simp [dict]) k
  · match ps, vs, hp, hv with
    | [x], [y], _, _ => exact ⟨_, ac_sandia_one plant (by decide +kernel) rfl demoInv_sandia (p := .tuple [x]) (v := .tuple [y]) ⟨rfl, rfl⟩ ⟨rfl, rfl⟩⟩

private theorem runs (n : Numerics) (t : Irradiance.PerezTable) (r : Results) (e T : ℝ) :
    ∃ q, runModelFromEff chain (exSite n t) (.frame (hour e T)) r = .ok q ∧ Light q 0 0 e T ∧ q.losses = some (fin 1) := by
  obtain ⟨q, h⟩ := run_eff_total (x := .frame (hour e T)) (able (exSite n t)) (by simp [chain, plant]) (by simp [Strict, chain, plant, Bare]) (by
      intro d hd k hk
      simp only [frames, List.mem_cons, List.not_mem_nil, or_false] at hd
      subst hd
      simp only [List.mem_singleton] at hk
      subst hk
      simp [hour, PyDict.get?]) r
  obtain ⟨times, f, -, hl, p⟩ := run_eff_array h
  obtain ⟨w, e', t', d, g1, g2, g3, g4, g5, g6, d0, d1, u1, u2, u3⟩ := p 0 _ (List.getElem?_eq_getElem (by simp [chain, plant]))
  obtain rfl : hour e T = w := by simpa [frameFor] using g1
  have he : e' = fun _ => fin e := by simp [hour, PyDict.get?] at g2; exact g2.symm
  have ht : t' = fun _ => fin T := by simpa [CellSpec, hour, PyDict.get?] using g6
  refine ⟨q, h, ⟨e', t', g3, g4, by rw [he], by rw [ht]⟩, ?_⟩
  rw [hl, u3.2, one_eq]

private theorem gap : (800 : ℝ) / module_.G0 * (module_.IL + module_.alpha * (25 - module_.T0)) ≤
    module_.sat 25 * (Real.exp (qk * module_.Eg / module_.gamma / kelvin 25) - 1) := by
  have hs : module_.sat 25 = 1e-10 := by
    simp [PModule.sat, PModule.gam, module_, examplePModule, kelvin]
    norm_num
  have h1 : (2.7 : ℝ) < Real.exp 1 := by have := Real.exp_one_gt_d9; linarith
  have hb : (1e16 : ℝ) ≤ Real.exp (qk * module_.Eg / module_.gamma / kelvin 25) := by
    calc (1e16 : ℝ) ≤ 2.7 ^ 40 := by norm_num
      _ ≤ Real.exp 1 ^ 40 := pow_le_pow_left₀ (by norm_num) h1.le 40
      _ = Real.exp 40 := by rw [← Real.exp_nat_mul]; norm_num
      _ ≤ _ := Real.exp_le_exp.2 (by norm_num [kelvin, qk, module_, examplePModule])
  rw [hs]
  simp only [module_, examplePModule] at hb ⊢
  norm_num at hb ⊢
  linarith

/-- An hour with 800 W/m2 gives no less than one with 500. -/
example (t : Irradiance.PerezTable) (r : Results) : ∃ q q' P P', runModelFromEff chain (exSite exists_good.choose t) (.frame (hour 500 25)) r = .ok q ∧
    runModelFromEff chain (exSite exists_good.choose t) (.frame (hour 800 25)) r = .ok q' ∧ Column q 0 0 "p_mp" P ∧ Column q' 0 0 "p_mp" P' ∧ P ≤ P' := by
  obtain ⟨q, h, l, f⟩ := runs exists_good.choose t r 500 25
  obtain ⟨q', h', l', -⟩ := runs exists_good.choose t r 800 25
  obtain ⟨P, P', a1, a2, -, a3⟩ := more_light (.inr (.inr h)) (.inr (.inr h')) (by exact exists_good.choose_spec) rfl rfl rfl rfl fit gentle l l' (by norm_num) (by norm_num)
    (by norm_num [kelvin]) (by norm_num [PModule.gam, module_, examplePModule]) (by norm_num [module_, examplePModule]) f (by norm_num)
  exact ⟨q, q', P, P', h, h', a1, a2, a3⟩

/-- At 25 degrees it gives no more than at -10. -/
example (t : Irradiance.PerezTable) (r : Results) : ∃ q q' P P', runModelFromEff chain (exSite exists_good.choose t) (.frame (hour 800 25)) r = .ok q ∧
    runModelFromEff chain (exSite exists_good.choose t) (.frame (hour 800 (-10))) r = .ok q' ∧ Column q 0 0 "p_mp" P ∧ Column q' 0 0 "p_mp" P' ∧ P ≤ P' := by
  obtain ⟨q, h, l, f⟩ := runs exists_good.choose t r 800 25
  obtain ⟨q', h', l', -⟩ := runs exists_good.choose t r 800 (-10)
  obtain ⟨P, P', a1, a2, a3⟩ := warmer (.inr (.inr h)) (.inr (.inr h')) (by exact exists_good.choose_spec) rfl rfl rfl rfl fit rfl l l' (by norm_num) (by norm_num)
    (by norm_num [kelvin]) (by norm_num [module_, examplePModule]) (by norm_num [module_, examplePModule]) f (by norm_num) fun o I V ho hi hv =>
      pvsyst_outweighs exists_good.choose_spec ok rfl (by norm_num) (by norm_num [kelvin]) (by norm_num) le_rfl (by norm_num [module_, examplePModule]) gap ho hi hv
  exact ⟨q, q', P, P', h, h', a1, a2, a3⟩

end Pvlib.Props.PvsystLight
end
