import Verif.Props.ChainMono
import Verif.Props.Warm

/-! # Property C227: more light and cooler modules never give less DC power (De Soto and CEC chains) -/

noncomputable section
open scoped Classical
namespace Pvlib.Props.ChainDiode
open Fl Pvlib.Tools Pvlib.PvFunctions Pvlib.PvSystem Pvlib.ModelChain Pvlib.Props.PvSystem Pvlib.Props.ChainRun
  Pvlib.Props.ChainArrays Pvlib.Props.ArrayClass Pvlib.Props.ChainFacts Pvlib.Props.ChainDark Pvlib.Props.ChainTare Pvlib.Props.ChainMono
  Pvlib.Props.CalcParams Pvlib.Props.PvDiode Pvlib.Props.Warm

/-! ### Specification -/

/-- The keys of a module dictionary that the De Soto and CEC models read. -/
def keys : List String := ["a_ref", "I_L_ref", "I_o_ref", "R_sh_ref", "R_s", "alpha_sc", "Adjust", "EgRef", "dEgdT", "irrad_ref", "temp_ref"]

/-- An array of De Soto modules: its dictionary holds the values of the module `m`; the four optional ones have their documented defaults. -/
structure Describes (d : PyDict PVal) (m : Module) : Prop where
  numbers : ∀ k ∈ keys, Numeric d k
  alpha : entry d "alpha_sc" = some (fin m.alpha)
  aref : entry d "a_ref" = some (fin m.aref)
  IL : entry d "I_L_ref" = some (fin m.IL)
  I0 : entry d "I_o_ref" = some (fin m.I0)
  Rsh : entry d "R_sh_ref" = some (fin m.Rsh)
  Rs : entry d "R_s" = some (fin m.Rs)
  Eg : (entry d "EgRef").getD (fin 1.121) = fin m.Eg
  dEg : (entry d "dEgdT").getD (fin (-0.0002677)) = fin m.dEg
  G0 : (entry d "irrad_ref").getD 1000 = fin m.G0
  T0 : (entry d "temp_ref").getD 25 = fin m.T0

/-- The module an array stands for under the chain's DC model: `Adjust` (per cent) reduces the temperature coefficient in the CEC model. -/
def Stands (c : Chain) (a : PvArr) (m : Module) : Prop :=
  (c.dc = some .desoto ∧ Describes a.module_parameters m) ∨
  (c.dc = some .cec ∧ ∃ (m0 : Module) (adjust : ℝ), Describes a.module_parameters m0 ∧ entry a.module_parameters "Adjust" = some (fin adjust) ∧
    m = { m0 with alpha := m0.alpha - m0.alpha * adjust / 100 })

/-- The value of a column of the DC results of array `k` at time `i`. -/
def Column (q : Results) (k i : ℕ) (name : String) (v : ℝ) : Prop :=
  ∃ f col, part k q.dc = some (.frame f) ∧ f.get? name = some col ∧ col i = fin v

/-! ### Parameters -/

private theorem kwReq_of {kw : PyDict Fl} {keys : List String} {xs : List Fl} (h : keys.map (fun k => kw.get? k) = xs.map some) :
    kwReq kw keys = .ok xs := by
  induction keys generalizing xs with
  | nil => cases xs with
    | nil => rfl
    | cons x xs => simp at h
  | cons k ks ih =>
    cases xs with
    | nil => simp at h
    | cons x xs =>
      simp only [List.map_cons, List.cons.injEq] at h
      simp [kwReq, h.1, ih h.2, Except.bind]

/-- The parameters of the single diode equation of an array are those of the module it stands for. -/
theorem params {c : Chain} {a : PvArr} {m : Module} (h : Stands c a m) : ∃ M, c.dc = some M ∧ (M = .desoto ∨ M = .cec) ∧
    ∀ e T : ℝ, diodeParams M a (fin e) (fin T) = .ok (desoto m e T) := by
  rcases h with ⟨hd, D⟩ | ⟨hd, m0, adjust, D, hA, rfl⟩
  · refine ⟨_, hd, .inl rfl, fun e T => ?_⟩
    obtain ⟨kw, h1, h2⟩ := numKwargs_ok (keys := ["a_ref", "I_L_ref", "I_o_ref", "R_sh_ref", "R_s", "alpha_sc", "EgRef", "dEgdT", "irrad_ref", "temp_ref"])
      (d := a.module_parameters) (fun k hk => D.numbers k (by simp only [keys, List.mem_cons, List.not_mem_nil, or_false] at hk ⊢; tauto))
    have hx : kwReq kw ["alpha_sc", "a_ref", "I_L_ref", "I_o_ref", "R_sh_ref", "R_s"] =
        .ok [fin m.alpha, fin m.aref, fin m.IL, fin m.I0, fin m.Rsh, fin m.Rs] :=
      kwReq_of (by simp [h2, D.alpha, D.aref, D.IL, D.I0, D.Rsh, D.Rs])
    simp only [diodeParams, if_true, desotoOf, h1, Except.bind, hx, kwOr, h2]
    have hG := D.G0
    have hT := D.T0
    rw [ofNat_eq] at hG hT
    simp [D.Eg, D.dEg, hG, hT, desoto]
  · refine ⟨_, hd, .inr rfl, fun e T => ?_⟩
    obtain ⟨kw, h1, h2⟩ := numKwargs_ok (keys := ["a_ref", "I_L_ref", "I_o_ref", "R_sh_ref", "R_s", "alpha_sc", "Adjust", "EgRef", "dEgdT", "irrad_ref", "temp_ref"])
      (d := a.module_parameters) (fun k hk => D.numbers k hk)
    have hx : kwReq kw ["alpha_sc", "a_ref", "I_L_ref", "I_o_ref", "R_sh_ref", "R_s", "Adjust"] =
        .ok [fin m0.alpha, fin m0.aref, fin m0.IL, fin m0.I0, fin m0.Rsh, fin m0.Rs, fin adjust] :=
      kwReq_of (by simp [h2, D.alpha, D.aref, D.IL, D.I0, D.Rsh, D.Rs, hA])
    rw [← cec_eq]
    simp only [diodeParams, reduceCtorEq, if_true, if_false, cecOf, h1, Except.bind, hx, kwOr, h2]
    have hG := D.G0
    have hT := D.T0
    rw [ofNat_eq] at hG hT
    simp [D.Eg, D.dEg, hG, hT, cec]

/-- The DC power reported for an array in one of the single diode models is the maximum power of one module with the parameters of the reported effective irradiance and cell
temperature, times the modules in series, the strings and the factor of the system losses. -/
theorem value_of {c : Chain} {s : Site} {x : Input} {r q : Results} (h : Ran c s x r q) (ho : c.ohmic = .no_loss) {k i : ℕ} {a : PvArr} (ha : c.system.arrays[k]? = some a)
    {M : DcModel} (hM : c.dc = some M) (hM2 : M = .desoto ∨ M = .cec ∨ M = .pvsyst) {e T : ℝ} {five : Five} (hpar : diodeParams M a (fin e) (fin T) = .ok five)
    {n S : ℝ} (hn : a.modules_per_string = fin n) (hS : a.strings = fin S) (hl : Light q k i e T) {f : ℝ}
    (hf : q.losses = some (fin f)) {o : SevenPoints} {p : ℝ} (hs : singlediode s.numerics five = .ok o) (hp : o.p_mp = fin p) :
    Column q k i "p_mp" (p * n * S * f) := by
  obtain ⟨f', hf', pw⟩ := power_of h
  obtain rfl := Option.some.inj (hf'.symm.trans hf)
  obtain ⟨E, t, d, e1, e2, e3, d0, d1, h1, h2, h3⟩ := pw k a ha
  obtain ⟨E', t', l1, l2, l3, l4⟩ := hl
  obtain rfl := Option.some.inj (e1.symm.trans l1)
  obtain rfl := Option.some.inj (e2.symm.trans l2)
  have h1' : ∃ (f : PyDict Ser) (q : ℕ → Five) (o : ℕ → SevenPoints), d0 = .frame f ∧ (∀ i, diodeParams M a (E i) (t i) = .ok (q i)) ∧
      (∀ i, singlediode s.numerics (q i) = .ok (o i)) ∧ ∀ name, f.get? name = ((diodeFrame o).get? name).map fun v i => fillna0 (scaledBy a name (v i)) := by
    unfold DcSpec at h1
    rw [hM] at h1
    rcases hM2 with rfl | rfl | rfl <;> exact h1
  obtain ⟨fr, qs, os, rfl, g1, g2, g3⟩ := h1'
  unfold OhmicSpec at h2
  simp only [ho] at h2
  subst h2
  have hq : qs i = five := by
    have := g1 i
    rw [l3, l4, hpar] at this
    exact (Except.ok.inj this).symm
  have hoi : os i = o := by
    have := g2 i
    rw [hq, hs] at this
    exact (Except.ok.inj this).symm
  have hcol : fr.get? "p_mp" = some fun i => fillna0 (scaledBy a "p_mp" ((os i).p_mp)) := by
    rw [g3]; simp [diodeFrame, PyDict.get?]
  have hv : fillna0 (scaledBy a "p_mp" ((os i).p_mp)) = fin (p * n * S) := by
    rw [hoi, hp, scaledBy, if_neg (by simp), if_neg (by simp), hn, hS]
    simp [fillna0]
  unfold LossSpec at h3
  cases hl : c.losses with
  | no_loss =>
    simp only [hl] at h3
    obtain ⟨rfl, e⟩ := h3
    rw [one_eq, fin_inj] at e
    exact ⟨fr, _, e3, hcol, by rw [hv, e, mul_one]⟩
  | pvwatts =>
    simp only [hl] at h3
    obtain ⟨l, -, -, h3⟩ := h3
    cases d with
    | series _ => simp at h3
    | frame f' => exact ⟨f', _, e3, by rw [h3, hcol]; rfl, by dsimp only; rw [hv, fin_mul]⟩

/-- **C227**: the DC power reported for an array of De Soto or CEC modules is the maximum power of one module at the reported effective irradiance and cell temperature, times the
modules in series, the strings and the factor of the system losses. -/
theorem dc_value {c : Chain} {s : Site} {x : Input} {r q : Results} (h : Ran c s x r q) (ho : c.ohmic = .no_loss) {k i : ℕ} {a : PvArr} (ha : c.system.arrays[k]? = some a)
    {m : Module} (hm : Stands c a m) {n S : ℝ} (hn : a.modules_per_string = fin n) (hS : a.strings = fin S) {e T : ℝ} (hl : Light q k i e T) {f : ℝ}
    (hf : q.losses = some (fin f)) {o : SevenPoints} {p : ℝ} (hs : singlediode s.numerics (desoto m e T) = .ok o) (hp : o.p_mp = fin p) :
    Column q k i "p_mp" (p * n * S * f) := by
  obtain ⟨M, hM, hM2, hpar⟩ := params hm
  exact value_of h ho ha hM (hM2.imp_right .inl) (hpar e T) hn hS hl hf hs hp

/-! ### Monotonicity -/

/-- An array of modules with meaningful reference values and a non-negative number of them. -/
structure Fit (c : Chain) (a : PvArr) (m : Module) (n S : ℝ) : Prop where
  stands : Stands c a m
  ok : m.Ok
  series : a.modules_per_string = fin n
  strings : a.strings = fin S
  n0 : 0 ≤ n
  S0 : 0 ≤ S

/-- **C227a.** At the same cell temperature an array with more effective irradiance reports no less DC power. -/
theorem more_light {c : Chain} {s s' : Site} {x x' : Input} {r r' q q' : Results} (h : Ran c s x r q) (h' : Ran c s' x' r' q') (hs : Good s.numerics)
    (hss : s'.numerics = s.numerics) (ho : c.ohmic = .no_loss) {k i i' : ℕ} {a : PvArr} (ha : c.system.arrays[k]? = some a) {m : Module} {n S : ℝ} (F : Fit c a m n S)
    {e e' T : ℝ} (hl : Light q k i e T) (hl' : Light q' k i' e' T) (h0 : 0 < e) (hee : e ≤ e') (hT : 0 < kelvin T) (hI : 0 < m.IL + m.alpha * (T - m.T0))
    {f : ℝ} (hf : q.losses = some (fin f)) (f0 : 0 ≤ f) :
    ∃ P P', Column q k i "p_mp" P ∧ Column q' k i' "p_mp" P' ∧ 0 ≤ P ∧ P ≤ P' := by
  have hf' : q'.losses = some (fin f) := by rw [← same_losses h h' ha, hf]
  obtain ⟨n0, S0⟩ := And.intro F.n0 F.S0
  obtain ⟨o, p, a1, a2, a3, -⟩ := (desoto_power hs F.ok (G := e) hT hI).1 h0
  have c1 := dc_value h ho ha F.stands F.series F.strings hl hf a1 a2
  rcases hee.eq_or_lt with rfl | hlt
  · exact ⟨_, _, c1, dc_value h' ho ha F.stands F.series F.strings hl' hf' (by rw [hss]; exact a1) a2, by positivity, le_rfl⟩
  · obtain ⟨o1, o', p1, p', b1, b2, b3, b4, b5⟩ := desoto_power_strictMono hs F.ok h0 hlt hT hI
    obtain rfl := Except.ok.inj (a1.symm.trans b1)
    obtain rfl := Fl.fin.inj (a2.symm.trans b3)
    refine ⟨_, _, c1, dc_value h' ho ha F.stands F.series F.strings hl' hf' (by rw [hss]; exact b2) b4, by positivity, ?_⟩
    gcongr

/-- **C227b.** In the same light the warmer of two runs reports no more DC power, as long as at the maximum power point of the warm module the diodes outweigh the gain in light
current. -/
theorem warmer {c : Chain} {s s' : Site} {x x' : Input} {r r' q q' : Results} (h : Ran c s x r q) (h' : Ran c s' x' r' q') (hs : Good s.numerics)
    (hss : s'.numerics = s.numerics) (ho : c.ohmic = .no_loss) {k i i' : ℕ} {a : PvArr} (ha : c.system.arrays[k]? = some a) {m : Module} {n S : ℝ} (F : Fit c a m n S)
    {e T T' : ℝ} (hl : Light q k i e T) (hl' : Light q' k i' e T') (h0 : 0 < e) (hTT : T' ≤ T) (hT' : 0 < kelvin T') (hI' : 0 < m.IL + m.alpha * (T' - m.T0))
    (hI : 0 < m.IL + m.alpha * (T - m.T0)) {f : ℝ} (hf : q.losses = some (fin f)) (f0 : 0 ≤ f)
    (hw : ∀ o I V, singlediode s.numerics (desoto m e T) = .ok o → o.i_mp = fin I → o.v_mp = fin V → Outweighs (ofDesoto m e) T' T I V) :
    ∃ P P', Column q k i "p_mp" P ∧ Column q' k i' "p_mp" P' ∧ P ≤ P' := by
  have hf' : q'.losses = some (fin f) := by rw [← same_losses h h' ha, hf]
  obtain ⟨n0, S0⟩ := And.intro F.n0 F.S0
  obtain ⟨o', o, -, -, P', P, I, W, b1, b2, -, -, b3, b4, b5, b6, -, b7⟩ := desoto_falls hs F.ok h0 hT' hTT hI' hI
  have := b7 (hw o I W b2 b5 b6)
  refine ⟨_, _, dc_value h ho ha F.stands F.series F.strings hl hf b2 b4, dc_value h' ho ha F.stands F.series F.strings hl' hf' (by rw [hss]; exact b1) b3, ?_⟩
  gcongr

/-! ### Example: an array of two strings of ten modules, a bright and a dull hour, a warm and a cool one -/

open Pvlib.Props.ChainTotal Pvlib.Props.ChainWitness Pvlib.Props.ChainConfig

/-- The dictionary of a crystalline silicon module of 60 cells, in the CEC model. -/
def dict : PyDict PVal :=
  [("alpha_sc", .num (fin 0.003)), ("a_ref", .num (fin 1.5)), ("I_L_ref", .num (fin 8.2)), ("I_o_ref", .num (fin 1e-10)), ("R_sh_ref", .num (fin 300)),
    ("R_s", .num (fin 0.3)), ("Adjust", .num (fin 100))]

def plant : System := ⟨[{ exArray with module_parameters := dict, modules_per_string := fin 10, strings := fin 2 }], demoInv, []⟩

/-- The chain that `ModelChain(plant, location, aoi_model='no_loss')` builds. -/
def chain : Chain := ⟨plant, "ineichen", "haydavies", "nrel_numpy", "kastenyoung1989", some .cec, .sandia, .no_loss, .no_loss, .sapm, .no_loss, .no_loss⟩

theorem chain_built : mkChain plant { aoi_model := some "no_loss" } = .ok chain := by
  rw [chain_iff]
  refine ⟨rfl, rfl, rfl, rfl, rfl, ?_, ?_, ?_, ?_, ?_, ?_, ?_⟩
  · rw [show (⟨chain.dc, none⟩ : Assigned DcModel) = ⟨some .cec, none⟩ from rfl, dc_inferred]
    refine ⟨by simp [First, dcMarks, HasAll, plant, dict, PyDict.get?], _, rfl, by simp [HasAll, plant, dict, PyDict.get?]⟩
  · rw [ac_inferred]
    simp [chain, plant, demoInv, PyDict.get?]
  · rw [aoi_named]
    decide +kernel
  · rw [spectral_cases]
    exact .inl rfl
  · rw [Pvlib.Props.ChainConfig.temp_inferred]
    simp [First, tempMarks, HasAll, chain, plant, exTemp, PyDict.get?]
  · decide +kernel
  · decide +kernel

private theorem fit : Fit chain { exArray with module_parameters := dict, modules_per_string := fin 10, strings := fin 2 } { exampleModule with alpha := 0 } 10 2 := by
  refine ⟨.inr ⟨rfl, exampleModule, 100, ?_, by simp [entry, dict, PyDict.get?], ?_⟩, ?_, rfl, rfl, by norm_num, by norm_num⟩
  · constructor <;> try simp [entry, dict, PyDict.get?, exampleModule]
    intro k _
    exact numeric_of (by simp [dict]) k
  · simp
  · constructor <;> norm_num [exampleModule, kelvin]

private theorem able (s : Site) : AblePower chain s := by
  have hk : ∀ k, Numeric exArray.temperature_model_parameters k := fun k => (exNumeric exArray (by simp [exSystem]) k).2
  refine ⟨fun a ha w _ => ?_, fun _ a ha => ?_, ⟨.cec, rfl, fun a ha => ?_⟩, .inl rfl, .inl rfl, .inr ⟨rfl, by simp [chain], fun ps vs hp hv => ?_⟩⟩
  · simp only [chain, plant, List.mem_singleton] at ha
    subst ha
    exact ⟨_, temp_sapm s.sigma _ w (ca := fin (-3.56)) (cb := fin (-0.0750)) (dT := 3) (by simp [exTemp, entry, PyDict.get?]) (by simp [exTemp, entry, PyDict.get?])
      (by simp [exTemp, entry, PyDict.get?]) (hk _)⟩
  · simp only [chain, plant, List.mem_singleton] at ha
    subst ha
    exact ⟨3, getNum_of (by simp [exTemp, entry, PyDict.get?])⟩
  · refine dc_accepted_computes plant none .cec ?_ ?_ a ha
    · have := ((chain_iff plant _ chain).mp chain_built).dc
      exact this
    · intro a ha k
      simp only [plant, List.mem_singleton] at ha
      subst ha
      exact numeric_of (by simp [dict]) k
  · match ps, vs, hp, hv with
    | [x], [y], _, _ => exact ⟨_, ac_sandia_one plant (by decide +kernel) rfl demoInv_sandia (p := .tuple [x]) (v := .tuple [y]) ⟨rfl, rfl⟩ ⟨rfl, rfl⟩⟩

private theorem runs (n : Numerics) (t : Irradiance.PerezTable) (r : Results) (e T : ℝ) :
    ∃ q, runModelFromEff chain (exSite n t) (.frame (hour e T)) r = .ok q ∧ Light q 0 0 e T ∧ q.losses = some (fin 1) := by
  obtain ⟨q, h⟩ := run_eff_total (x := .frame (hour e T)) (able (exSite n t)) (by simp [chain, plant]) (by simp [Strict, chain, plant, Bare]) (by
      intro d hd k hk
      simp only [frames, List.mem_cons, List.not_mem_nil, or_false] at hd
      subst hd
      simp only [List.mem_singleton] at hk
      subst hk
      simp [hour, PyDict.get?]) r
  obtain ⟨times, f, -, hl, p⟩ := run_eff_array h
  obtain ⟨w, e', t', d, g1, g2, g3, g4, g5, g6, d0, d1, u1, u2, u3⟩ := p 0 _ (List.getElem?_eq_getElem (by simp [chain, plant]))
  obtain rfl : hour e T = w := by simpa [frameFor] using g1
  have he : e' = fun _ => fin e := by simp [hour, PyDict.get?] at g2; exact g2.symm
  have ht : t' = fun _ => fin T := by simpa [CellSpec, hour, PyDict.get?] using g6
  refine ⟨q, h, ⟨e', t', g3, g4, by rw [he], by rw [ht]⟩, ?_⟩
  rw [hl, u3.2, one_eq]

/-- An hour with 800 W/m2 gives no less than one with 500. -/
example (t : Irradiance.PerezTable) (r : Results) : ∃ q q' P P', runModelFromEff chain (exSite exists_good.choose t) (.frame (hour 500 25)) r = .ok q ∧
    runModelFromEff chain (exSite exists_good.choose t) (.frame (hour 800 25)) r = .ok q' ∧ Column q 0 0 "p_mp" P ∧ Column q' 0 0 "p_mp" P' ∧ P ≤ P' := by
  obtain ⟨q, h, l, f⟩ := runs exists_good.choose t r 500 25
  obtain ⟨q', h', l', -⟩ := runs exists_good.choose t r 800 25
  obtain ⟨P, P', a1, a2, -, a3⟩ := more_light (.inr (.inr h)) (.inr (.inr h')) (by exact exists_good.choose_spec) rfl rfl rfl fit l l' (by norm_num) (by norm_num)
    (by norm_num [kelvin]) (by norm_num [exampleModule]) f (by norm_num)
  exact ⟨q, q', P, P', h, h', a1, a2, a3⟩

/-- At 25 degrees it gives no more than at -10. -/
example (t : Irradiance.PerezTable) (r : Results) : ∃ q q' P P', runModelFromEff chain (exSite exists_good.choose t) (.frame (hour 800 25)) r = .ok q ∧
    runModelFromEff chain (exSite exists_good.choose t) (.frame (hour 800 (-10))) r = .ok q' ∧ Column q 0 0 "p_mp" P ∧ Column q' 0 0 "p_mp" P' ∧ P ≤ P' := by
  obtain ⟨q, h, l, f⟩ := runs exists_good.choose t r 800 25
  obtain ⟨q', h', l', -⟩ := runs exists_good.choose t r 800 (-10)
  obtain ⟨P, P', a1, a2, a3⟩ := warmer (.inr (.inr h)) (.inr (.inr h')) (by exact exists_good.choose_spec) rfl rfl rfl fit l l' (by norm_num) (by norm_num)
    (by norm_num [kelvin]) (by norm_num [exampleModule]) (by norm_num [exampleModule]) f (by norm_num) fun o I V ho hi hv =>
      desoto_outweighs exists_good.choose_spec fit.ok (by norm_num) (by norm_num [kelvin]) (by norm_num) le_rfl (by norm_num [exampleModule]) example_bound ho hi hv
  exact ⟨q, q', P, P', h, h', a1, a2, a3⟩

end Pvlib.Props.ChainDiode
end
