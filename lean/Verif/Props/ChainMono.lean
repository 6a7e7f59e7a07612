import Verif.Props.ChainTare
import Verif.Props.PvLosses

/-! # Property C217: more light and cooler cells never give less power (PVWatts chains) -/

noncomputable section
open scoped Classical
namespace Pvlib.Props.ChainMono
open Fl Pvlib.Tools Pvlib.PvFunctions Pvlib.PvSystem Pvlib.ModelChain Pvlib.Props.PvSystem Pvlib.Props.ChainRun
  Pvlib.Props.ChainArrays Pvlib.Props.ArrayClass Pvlib.Props.ChainFacts Pvlib.Props.ChainDark Pvlib.Props.ChainTare

/-! ### Specification -/

/-- `q` are the results of a run of the chain by one of its three entry points. -/
def Ran (c : Chain) (s : Site) (x : Input) (r q : Results) : Prop :=
  runModel c s x r = .ok q ∨ runModelFromPoa c s x r = .ok q ∨ runModelFromEff c s x r = .ok q

/-- An array of PVWatts modules: rating per module, temperature coefficient and its reference temperature, modules in series, strings; without the
low-light adjustment `k`. -/
structure Watts (a : PvArr) (pdc0 γ tref n m : ℝ) : Prop where
  rating : entry a.module_parameters "pdc0" = some (fin pdc0)
  coefficient : entry a.module_parameters "gamma_pdc" = some (fin γ)
  numbers : ∀ k ∈ ["temp_ref", "k", "cap_adjustment"], Numeric a.module_parameters k
  reference : (entry a.module_parameters "temp_ref").getD 25 = fin tref
  unadjusted : a.module_parameters.get? "k" = none
  series : a.modules_per_string = fin n
  strings : a.strings = fin m

/-- Effective irradiance and cell temperature of array `k` at time `i`, as reported. -/
def Light (q : Results) (k i : ℕ) (e T : ℝ) : Prop :=
  ∃ E t, part k q.effective_irradiance = some E ∧ part k q.cell_temperature = some t ∧ E i = fin e ∧ t i = fin T

/-- DC power of array `k` at time `i`, as reported. -/
def Power (q : Results) (k i : ℕ) (P : ℝ) : Prop := ∃ p, part k q.dc = some (.series p) ∧ p i = fin P

/-! ### Values -/

/-- **C217**: the DC power a PVWatts chain reports for an array: rated power times the irradiance in suns times the temperature factor, times
the modules in series, the strings and the factor of the system losses. -/
theorem dc_value {c : Chain} {s : Site} {x : Input} {r q : Results} (h : Ran c s x r q) (hdc : c.dc = some .pvwatts) {k i : ℕ} {a : PvArr}
    (ha : c.system.arrays[k]? = some a) {pdc0 γ tref n m : ℝ} (W : Watts a pdc0 γ tref n m) {e T : ℝ} (hl : Light q k i e T) {f : ℝ}
    (hf : q.losses = some (fin f)) : Power q k i (e / 1000 * pdc0 * (1 + γ * (T - tref)) * n * m * f) := by
  obtain ⟨f', hf', p⟩ := power_of h
  obtain rfl := Option.some.inj (hf'.symm.trans hf)
  obtain ⟨E, t, d, e1, e2, e3, d0, d1, h1, h2, h3⟩ := p k a ha
  obtain ⟨E', t', l1, l2, l3, l4⟩ := hl
  obtain rfl := Option.some.inj (e1.symm.trans l1)
  obtain rfl := Option.some.inj (e2.symm.trans l2)
  unfold DcSpec at h1
  simp only [hdc] at h1
  obtain ⟨p, o, rfl, hp⟩ := h1
  have hv : p i = fin (e / 1000 * pdc0 * (1 + γ * (T - tref)) * n * m) := by
    obtain ⟨g1, g2⟩ := hp i
    obtain ⟨kw, k1, k2⟩ := numKwargs_ok (d := a.module_parameters) W.numbers
    unfold pvwattsDcOf at g1
    rw [getNums_of (xs := [fin pdc0, fin γ]) (by simp [W.rating, W.coefficient])] at g1
    simp only [Except.bind, k1] at g1
    have hk : kw.get? "k" = none := by rw [k2]; simp [entry, W.unadjusted]
    have ht : kwOr kw "temp_ref" 25 = fin tref := by unfold kwOr; rw [k2]; simpa using W.reference
    rw [hk, ht, l3, l4] at g1
    rw [g2, ← Except.ok.inj g1, scaledBy, if_neg (by simp), if_neg (by simp), W.series, W.strings]
    simp only [pvwattsDc, one_eq, fin_mul, fin_sub, fin_add, fin_inj]
    ring
  unfold OhmicSpec at h2
  cases ho : c.ohmic with
  | dc_ohms_from_percent =>
    simp only [ho] at h2
    obtain ⟨_, _, _, _, _, h, _⟩ := h2
    simp at h
  | no_loss =>
    simp only [ho] at h2
    subst h2
    unfold LossSpec at h3
    cases hl : c.losses with
    | no_loss =>
      simp only [hl] at h3
      obtain ⟨rfl, e⟩ := h3
      rw [one_eq, fin_inj] at e
      exact ⟨p, e3, by rw [hv, e, mul_one]⟩
    | pvwatts =>
      simp only [hl] at h3
      obtain ⟨l, -, -, h3⟩ := h3
      cases d with
      | frame _ => simp at h3
      | series p' => exact ⟨p', e3, by rw [h3, hv, fin_mul]⟩

/-- **C217**: the AC power is that of the PVWatts inverter at the sum of the DC power of the arrays. -/
theorem ac_value {c : Chain} {s : Site} {x : Input} {r q : Results} (h : Ran c s x r q) (hn : c.system.arrays ≠ []) (hac : c.ac = .pvwatts)
    {pdc0 en er : ℝ} (hp : entry c.system.inverter_parameters "pdc0" = some (fin pdc0))
    (h1 : Numeric c.system.inverter_parameters "eta_inv_nom") (h2 : Numeric c.system.inverter_parameters "eta_inv_ref")
    (h3 : (entry c.system.inverter_parameters "eta_inv_nom").getD 0.96 = fin en)
    (h4 : (entry c.system.inverter_parameters "eta_inv_ref").getD 0.9637 = fin er) {i : ℕ} {P : ℕ → ℝ}
    (hd : ∀ k < c.system.arrays.length, Power q k i (P k)) :
    ∃ ac, q.ac = some ac ∧
      ac i = fillna0 (Inverter.pvwatts (fin ((List.range c.system.arrays.length).map P).sum) (fin pdc0) (fin en) (fin er)) := by
  obtain ⟨ac, ds, a1, a2, a3, a4⟩ := run_ac h
  refine ⟨ac, a1, ?_⟩
  unfold AcSpec at a4
  simp only [hac] at a4
  obtain ⟨ps, z, b1, b2⟩ := a4
  obtain ⟨z1, z2⟩ := b2 i
  have lp := maps_length b1
  have hps : (ps.map fun p => p i) = ((List.range c.system.arrays.length).map P).map fin := by
    refine List.ext_getElem (by simp [lp, a2]) ?_
    intro k g1 g2
    have hk : k < ps.length := by simpa using g1
    have hk' : k < c.system.arrays.length := by omega
    obtain ⟨p', e1, e2⟩ := hd k hk'
    rw [a3 k hk'] at e1
    have := congrArg (fun l => l[k]?) b1
    simp only [List.getElem?_map, e1, List.getElem?_eq_getElem hk, Option.map_some, Dc.power, Option.some.injEq, Except.ok.injEq] at this
    simp only [List.getElem_map, List.getElem_range]
    rw [← this, e2]
  rw [ac_pvwatts c.system (m := "pvwatts") (by decide +kernel) hn (p := .tuple (ps.map fun p => p i)) (ps := ps.map fun p => p i)
    ⟨by simp [lp, a2], rfl⟩ hp h1 h2, h3, h4] at z1
  rw [z2, ← Except.ok.inj z1]
  congr 2
  rw [hps]
  split_ifs with hl
  · rw [hl]
    simp
  · rw [sum_fin]

/-! ### Monotonicity -/

/-- The lights of two runs at a time: array by array the second has no less effective irradiance and no warmer cells, and the cells of the first
are not so hot that the linear temperature factor is negative. -/
structure Brighter (c : Chain) (q q' : Results) (i : ℕ) : Prop where
  light : ∀ k a, c.system.arrays[k]? = some a → ∃ e T e' T' pdc0 γ tref n m : ℝ, Watts a pdc0 γ tref n m ∧ Light q k i e T ∧ Light q' k i e' T' ∧
    0 ≤ e ∧ e ≤ e' ∧ T' ≤ T ∧ 0 ≤ pdc0 ∧ γ ≤ 0 ∧ 0 ≤ 1 + γ * (T - tref) ∧ 0 ≤ n ∧ 0 ≤ m
  losses : ∃ f : ℝ, 0 ≤ f ∧ q.losses = some (fin f)

/-- The factor of the system losses depends on the chain only. -/
theorem same_losses {c : Chain} {s s' : Site} {x x' : Input} {r r' q q' : Results} (h : Ran c s x r q) (h' : Ran c s' x' r' q') {k : ℕ} {a : PvArr}
    (ha : c.system.arrays[k]? = some a) : q.losses = q'.losses := by
  obtain ⟨f, hf, p⟩ := power_of h
  obtain ⟨f', hf', p'⟩ := power_of h'
  obtain ⟨_, _, d, -, -, -, d0, d1, -, -, h3⟩ := p k a ha
  obtain ⟨_, _, d', -, -, -, d0', d1', -, -, h3'⟩ := p' k a ha
  rw [hf, hf']
  unfold LossSpec at h3 h3'
  cases hl : c.losses with
  | no_loss => simp only [hl] at h3 h3'; rw [h3.2, h3'.2]
  | pvwatts =>
    simp only [hl] at h3 h3'
    obtain ⟨l, e1, e2, -⟩ := h3
    obtain ⟨l', e1', e2', -⟩ := h3'
    rw [e1] at e1'
    rw [e2, e2', Except.ok.inj e1']

/-- **C217a.** Array by array, DC power is no less where there is no less light and the cells are no warmer. -/
theorem dc_mono {c : Chain} {s s' : Site} {x x' : Input} {r r' q q' : Results} (h : Ran c s x r q) (h' : Ran c s' x' r' q')
    (hdc : c.dc = some .pvwatts) {i : ℕ} (B : Brighter c q q' i) {k : ℕ} (hk : k < c.system.arrays.length) :
    ∃ P P', Power q k i P ∧ Power q' k i P' ∧ 0 ≤ P ∧ P ≤ P' := by
  obtain ⟨e, T, e', T', pdc0, γ, tref, n, m, W, l1, l2, e0, e1, t1, p0, g0, f0, n0, m0⟩ := B.light k _ (List.getElem?_eq_getElem hk)
  obtain ⟨f, h0, hf⟩ := B.losses
  have ha := List.getElem?_eq_getElem hk
  have hf' : q'.losses = some (fin f) := by rw [← same_losses h h' ha, hf]
  refine ⟨_, _, dc_value h hdc ha W l1 hf, dc_value h' hdc ha W l2 hf', by positivity, ?_⟩
  have ht : 1 + γ * (T - tref) ≤ 1 + γ * (T' - tref) := by nlinarith
  have e2 : 0 ≤ e' := e0.trans e1
  have : 0 ≤ e' / 1000 * pdc0 := by positivity
  gcongr

/-- AC power of two PVWatts systems with inverters of the same parameters: no less where no array has less DC power, as long as the DC power is not more
than 30 times the rating of the inverter. -/
theorem ac_rises {c c' : Chain} {s s' : Site} {x x' : Input} {r r' q q' : Results} (h : Ran c s x r q) (h' : Ran c' s' x' r' q')
    (hac : c.ac = .pvwatts) (hac' : c'.ac = .pvwatts) (hn : c.system.arrays ≠ []) (hl : c'.system.arrays.length = c.system.arrays.length)
    (hi : c'.system.inverter_parameters = c.system.inverter_parameters)
    {pdc0 en er : ℝ} (hp : entry c.system.inverter_parameters "pdc0" = some (fin pdc0))
    (h1 : Numeric c.system.inverter_parameters "eta_inv_nom") (h2 : Numeric c.system.inverter_parameters "eta_inv_ref")
    (h3 : (entry c.system.inverter_parameters "eta_inv_nom").getD 0.96 = fin en)
    (h4 : (entry c.system.inverter_parameters "eta_inv_ref").getD 0.9637 = fin er) (p0 : 0 < pdc0) (n0 : 0 < en) (r0 : 0 < er)
    {i : ℕ} (le : ∀ k < c.system.arrays.length, ∃ P P', Power q k i P ∧ Power q' k i P' ∧ 0 ≤ P ∧ P ≤ P')
    (small : ∀ P : ℕ → ℝ, (∀ k < c.system.arrays.length, Power q' k i (P k)) → ((List.range c.system.arrays.length).map P).sum ≤ 30 * pdc0) :
    ∃ ac ac' y y', q.ac = some ac ∧ q'.ac = some ac' ∧ ac i = fin y ∧ ac' i = fin y' ∧ 0 ≤ y ∧ y ≤ y' := by
  have key : ∀ k, ∃ P P' : ℝ, k < c.system.arrays.length → Power q k i P ∧ Power q' k i P' ∧ 0 ≤ P ∧ P ≤ P' := by
    intro k
    by_cases hk : k < c.system.arrays.length
    · obtain ⟨P, P', h⟩ := le k hk
      exact ⟨P, P', fun _ => h⟩
    · exact ⟨0, 0, fun h => absurd h hk⟩
  choose P P' hP using key
  have hn' : c'.system.arrays ≠ [] := by
    intro e
    rw [e] at hl
    exact hn (List.length_eq_zero_iff.mp hl.symm)
  obtain ⟨ac, a1, a2⟩ := ac_value h hn hac hp h1 h2 h3 h4 fun k hk => (hP k hk).1
  obtain ⟨ac', b1, b2⟩ := ac_value h' hn' hac' (by rw [hi]; exact hp) (by rw [hi]; exact h1) (by rw [hi]; exact h2) (by rw [hi]; exact h3)
    (by rw [hi]; exact h4) fun k hk => (hP k (by rw [← hl]; exact hk)).2.1
  rw [hl] at b2
  have hs := small P' fun k hk => (hP k hk).2.1
  have hle : ((List.range c.system.arrays.length).map P).sum ≤ ((List.range c.system.arrays.length).map P').sum :=
    List.sum_le_sum fun k hk => (hP k (List.mem_range.mp hk)).2.2.2
  have h0 : 0 ≤ ((List.range c.system.arrays.length).map P).sum :=
    List.sum_nonneg fun y hy => by
      obtain ⟨k, hk, rfl⟩ := List.mem_map.mp hy
      exact (hP k (List.mem_range.mp hk)).2.2.1
  generalize ((List.range c.system.arrays.length).map P).sum = S at *
  generalize ((List.range c.system.arrays.length).map P').sum = S' at *
  have fine : ∀ x : ℝ, ∃ y : ℝ, Inverter.pvwatts (fin x) (fin pdc0) (fin en) (fin er) = fin y ∧ 0 ≤ y := by
    intro x
    obtain ⟨g1, g2⟩ := Inverter.pvwatts_range (fin x) pdc0 en er p0 r0 n0
    cases hv : Inverter.pvwatts (fin x) (fin pdc0) (fin en) (fin er) with
    | fin y =>
      rw [hv] at g2
      rcases g2 with g2 | ⟨_, g2, g3⟩
      · simp at g2
      · rw [fin_inj] at g2; subst g2; exact ⟨_, rfl, g3.1⟩
    | nan => rw [hv] at g1; simp at g1
    | pinf => rw [hv] at g2; exact absurd g2 (by simp [NanOr])
    | ninf => rw [hv] at g2; exact absurd g2 (by simp [NanOr])
  obtain ⟨y', v', y0'⟩ := fine S'
  rcases h0.eq_or_lt with rfl | hpos
  · have z := Inverter.pvwatts_zero pdc0 en er p0 r0.ne' n0.le
    rw [zero_eq] at z
    refine ⟨ac, ac', 0, y', a1, b1, ?_, ?_, le_rfl, y0'⟩
    · rw [a2, z]; simp [fillna0]
    · rw [b2, v']; simp [fillna0]
  · obtain ⟨y, y2, v1, v2, hyy⟩ := Inverter.pvwatts_mono S S' pdc0 en er p0 r0 n0 hpos hle hs
    obtain ⟨y1, v3, y10⟩ := fine S
    rw [v1, fin_inj] at v3
    refine ⟨ac, ac', y, y2, a1, b1, ?_, ?_, by rw [v3]; exact y10, hyy⟩
    · rw [a2, v1]; simp [fillna0]
    · rw [b2, v2]; simp [fillna0]

/-- **C217b.** AC power of the system is no less at a time when no array has less light or warmer cells, as long as the DC power is not more than
30 times the rating of the inverter. -/
theorem ac_mono {c : Chain} {s s' : Site} {x x' : Input} {r r' q q' : Results} (h : Ran c s x r q) (h' : Ran c s' x' r' q')
    (hdc : c.dc = some .pvwatts) (hac : c.ac = .pvwatts) (hn : c.system.arrays ≠ [])
    {pdc0 en er : ℝ} (hp : entry c.system.inverter_parameters "pdc0" = some (fin pdc0))
    (h1 : Numeric c.system.inverter_parameters "eta_inv_nom") (h2 : Numeric c.system.inverter_parameters "eta_inv_ref")
    (h3 : (entry c.system.inverter_parameters "eta_inv_nom").getD 0.96 = fin en)
    (h4 : (entry c.system.inverter_parameters "eta_inv_ref").getD 0.9637 = fin er) (p0 : 0 < pdc0) (n0 : 0 < en) (r0 : 0 < er)
    {i : ℕ} (B : Brighter c q q' i)
    (small : ∀ P : ℕ → ℝ, (∀ k < c.system.arrays.length, Power q' k i (P k)) → ((List.range c.system.arrays.length).map P).sum ≤ 30 * pdc0) :
    ∃ ac ac' y y', q.ac = some ac ∧ q'.ac = some ac' ∧ ac i = fin y ∧ ac' i = fin y' ∧ 0 ≤ y ∧ y ≤ y' :=
  ac_rises h h' hac hac hn rfl rfl hp h1 h2 h3 h4 p0 n0 r0 (fun _ hk => dc_mono h h' hdc B hk) small

/-! ### Example: two arrays, a brighter and cooler hour -/

open Pvlib.Props.ChainTotal Pvlib.Props.ChainWitness Pvlib.Props.ChainConfig Pvlib.Props.ChainStrings

/-- One hour with this effective irradiance and cell temperature. -/
def hour (e T : ℝ) : DF := ⟨[12], [("effective_irradiance", fun _ => fin e), ("cell_temperature", fun _ => fin T)]⟩

private theorem run_hour {c : Chain} (hc : withPvwatts (wattsOf [3, 2]) {} = .ok c) (n : Numerics) (t : Irradiance.PerezTable) (r : Results) (e T : ℝ) :
    ∃ q, runModelFromEff c (exSite n t) (.tuple [hour e T, hour e T]) r = .ok q ∧ (∀ k < 2, Light q k 0 e T) ∧ q.losses ≠ none := by
  obtain ⟨D, -⟩ := watts_chain [3, 2] (by simp)
  have E := ((pvwatts_preset _ c).mp hc).2.2
  obtain ⟨q, h⟩ := run_eff_total (x := .tuple [hour e T, hour e T]) (pvwatts_able D hc (exSite n t)) (by rw [E]; simp [wattsOf])
    (by rw [E]; simp [Strict, Bare, Matches, frames, wattsOf]) (by
      intro d hd k hk
      simp only [frames, List.mem_cons, List.not_mem_nil, or_false, or_self] at hd
      subst hd
      simp only [List.mem_singleton] at hk
      subst hk
      simp [hour, PyDict.get?]) r
  obtain ⟨times, f, -, hl, p⟩ := run_eff_array h
  refine ⟨q, h, fun k hk => ?_, by rw [hl]; simp⟩
  have hlen : c.system.arrays.length = 2 := by rw [E]; rfl
  obtain ⟨w, e', t', d, g1, g2, g3, g4, g5, g6, g7⟩ := p k _ (List.getElem?_eq_getElem (by omega))
  have hw : w = hour e T := by
    have : k = 0 ∨ k = 1 := by omega
    rcases this with rfl | rfl <;> exact (Option.some.inj g1).symm
  subst hw
  have he : e' = fun _ => fin e := by simp [hour, PyDict.get?] at g2; exact g2.symm
  have ht : t' = fun _ => fin T := by simpa [CellSpec, hour, PyDict.get?] using g6
  exact ⟨e', t', g3, g4, by rw [he], by rw [ht]⟩

theorem in_watts {a : PvArr} {k : ℕ} (h : (wattsOf [3, 2]).arrays[k]? = some a) : ∃ m : ℝ, 0 ≤ m ∧ m ≤ 3 ∧ Watts a 100 (-0.003) 25 1 m := by
  have key : ∀ m : ℝ, Watts { exArray with strings := fin m } 100 (-0.003) 25 1 m := by
    intro m
    refine ⟨?_, ?_, ?_, ?_, ?_, rfl, rfl⟩
    · simp [exModule, entry, PyDict.get?]
    · simp [exModule, entry, PyDict.get?]
    · intro k _
      exact (exNumeric exArray (by simp [exSystem]) k).1
    · simp [exModule, entry, PyDict.get?]
    · simp [exModule, PyDict.get?]
  match k, h with
  | 0, h => obtain rfl := Option.some.inj h; exact ⟨3, by norm_num, by norm_num, key 3⟩
  | 1, h => obtain rfl := Option.some.inj h; exact ⟨2, by norm_num, by norm_num, key 2⟩

theorem watts_losses {c : Chain} (hc : withPvwatts (wattsOf [3, 2]) {} = .ok c) {s : Site} {x : Input} {r q : Results} (h : Ran c s x r q) :
    ∃ f : ℝ, q.losses = some (fin f) ∧ 0 ≤ f ∧ f ≤ 1 := by
  obtain ⟨D, -⟩ := watts_chain [3, 2] (by simp)
  have E := ((pvwatts_preset _ c).mp hc).2.2
  have hs : c.system = wattsOf [3, 2] := by rw [E]
  have a0 : c.system.arrays[0]? = some { exArray with strings := fin 3 } := by rw [hs]; rfl
  obtain ⟨f, hf, p⟩ := power_of h
  obtain ⟨_, _, _, -, -, -, _, _, -, -, h3⟩ := p 0 _ a0
  unfold LossSpec at h3
  rw [E] at h3
  obtain ⟨l, e1, e2, -⟩ := h3
  have v := losses_value (wattsOf [3, 2]) fun k _ => D.losses k
  have e1 := v.symm.trans e1
  have e1 := Except.ok.inj e1
  have ee : ∀ k, entry (wattsOf [3, 2]).losses_parameters k = none := fun k => by simp [wattsOf, entry, PyDict.get?]
  simp only [ee, Option.getD_none] at e1
  obtain ⟨b1, -, b2⟩ := PvLosses.pvwatts_losses_value [2, 3, 0, 2, 2, 0.5, 1.5, 1, 0, 3]
  obtain ⟨-, b3, b4, -⟩ := b2 (by
    intro p hp
    simp only [List.mem_cons, List.not_mem_nil, or_false] at hp
    rcases hp with rfl | rfl | rfl | rfl | rfl | rfl | rfl | rfl | rfl | rfl <;> norm_num)
  have e3 : l = fin (100 * (1 - PvLosses.kept [2, 3, 0, 2, 2, 0.5, 1.5, 1, 0, 3])) := by
    rw [← e1, ← b1]; rfl
  refine ⟨(100 - 100 * (1 - PvLosses.kept [2, 3, 0, 2, 2, 0.5, 1.5, 1, 0, 3])) / 100, ?_, by linarith, by linarith⟩
  rw [hf, e2, e3, ofNat_eq, fin_sub, fin_div (by norm_num)]

example (n : Numerics) (t : Irradiance.PerezTable) (r : Results) : ∃ c q q' ac ac' y y',
    runModelFromEff c (exSite n t) (.tuple [hour 500 50, hour 500 50]) r = .ok q ∧
    runModelFromEff c (exSite n t) (.tuple [hour 800 40, hour 800 40]) r = .ok q' ∧
    q.ac = some ac ∧ q'.ac = some ac' ∧ ac 0 = fin y ∧ ac' 0 = fin y' ∧ 0 ≤ y ∧ y ≤ y' := by
  obtain ⟨D, c, hc⟩ := watts_chain [3, 2] (by simp)
  have E := ((pvwatts_preset _ c).mp hc).2.2
  have hs : c.system = wattsOf [3, 2] := by rw [E]
  obtain ⟨q, h, l1, hl⟩ := run_hour hc n t r 500 50
  obtain ⟨q', h', l2, -⟩ := run_hour hc n t r 800 40
  have hlen : c.system.arrays.length = 2 := by rw [E]; rfl
  have a0 : c.system.arrays[0]? = some { exArray with strings := fin 3 } := by rw [hs]; rfl
  obtain ⟨f, hf, f0, f1⟩ := watts_losses hc (.inr (.inr h))
  have R : Ran c (exSite n t) _ r q := .inr (.inr h)
  have R' : Ran c (exSite n t) _ r q' := .inr (.inr h')
  have B : Brighter c q q' 0 := by
    refine ⟨fun k a ha => ?_, f, f0, hf⟩
    have hk : k < 2 := by rw [← hlen]; exact (List.getElem?_eq_some_iff.mp ha).1
    rw [hs] at ha
    obtain ⟨m, m0, -, W⟩ := in_watts ha
    exact ⟨500, 50, 800, 40, 100, -0.003, 25, 1, m, W, l1 k hk, l2 k hk, by norm_num, by norm_num, by norm_num, by norm_num, by norm_num, by norm_num,
      by norm_num, m0⟩
  obtain ⟨ac, ac', y, y', z⟩ := ac_mono R R' (by rw [E]) (by rw [E]) (by rw [hs]; exact D.arrays)
    (pdc0 := 200) (en := 0.96) (er := 0.9637) (by rw [hs]; simp [wattsOf, entry, PyDict.get?]) (by rw [hs]; exact D.inverter _)
    (by rw [hs]; exact D.inverter _) (by rw [hs]; simp [wattsOf, entry, PyDict.get?, ofScientific_eq])
    (by rw [hs]; simp [wattsOf, entry, PyDict.get?, ofScientific_eq]) (by norm_num) (by norm_num) (by norm_num) B (by
      intro P hP
      have b : ∀ k < 2, P k ≤ 300 := by
        intro k hk
        have ha := List.getElem?_eq_getElem (l := c.system.arrays) (i := k) (by omega)
        obtain ⟨m, m0, m3, W⟩ := in_watts (by rw [← hs]; exact ha)
        obtain ⟨p1, u1, u2⟩ := hP k (by omega)
        obtain ⟨p2, v1, v2⟩ := dc_value R' (by rw [E]) ha W (l2 k hk) ((same_losses R R' a0).symm.trans hf)
        rw [u1] at v1
        obtain rfl := Dc.series.inj (Option.some.inj v1)
        rw [u2, fin_inj] at v2
        rw [v2]
        have : m * f ≤ 3 * 1 := mul_le_mul m3 f1 f0 (by norm_num)
        nlinarith
      have := b 0 (by norm_num)
      have := b 1 (by norm_num)
      rw [hlen]
      simp [List.range_succ]
      linarith)
  exact ⟨c, q, q', ac, ac', y, y', h, h', z⟩

end Pvlib.Props.ChainMono
end
