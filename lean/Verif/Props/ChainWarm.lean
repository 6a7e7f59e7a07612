import Verif.Props.ChainMono
import Verif.Props.Temperature

/-! # Property C223: warmer air and less wind never give more power (PVWatts chains) -/

noncomputable section
open scoped Classical
namespace Pvlib.Props.ChainWarm
open Fl Pvlib.Tools Pvlib.PvFunctions Pvlib.PvSystem Pvlib.ModelChain Pvlib.Props.PvSystem Pvlib.Props.ChainRun
  Pvlib.Props.ChainArrays Pvlib.Props.ArrayClass Pvlib.Props.ChainFacts Pvlib.Props.ChainMono Pvlib.Props.Temperature

/-! ### Specification -/

/-- The three ways to run a chain. -/
inductive Entry where
  | weather
  | poa
  | effective

/-- Running it. -/
def Entry.run : Entry → Chain → Site → Input → Results → Except PyErr Results
  | .weather => runModel
  | .poa => runModelFromPoa
  | .effective => runModelFromEff

/-- The irradiance that heats array `k`: the plane-of-array irradiance computed by the run or given in the data; where the frames of a run from effective irradiance do not
all have it, the effective irradiance. -/
def Entry.heat (n : Entry) (x : Input) (q : Results) (k : ℕ) : Option Ser :=
  match n with
  | .weather => (part k q.total_irrad).bind fun ti => ti.cols.get? "poa_global"
  | .poa => (frameFor x k).bind fun w => w.cols.get? "poa_global"
  | .effective => if HasCols x ["poa_global"] then (frameFor x k).bind fun w => w.cols.get? "poa_global" else part k q.effective_irradiance

/-- The thermal model of the chain, with the coefficients of the array. -/
def Thermal (c : Chain) (a : PvArr) (m : Steady) : Prop :=
  match m with
  | .sapm ca cb d R => c.temp = .sapm ∧ entry a.temperature_model_parameters "a" = some (fin ca) ∧ entry a.temperature_model_parameters "b" = some (fin cb) ∧
      entry a.temperature_model_parameters "deltaT" = some (fin d) ∧ Numeric a.temperature_model_parameters "irrad_ref" ∧
      (entry a.temperature_model_parameters "irrad_ref").getD 1000 = fin R
  | .pvsyst uc uv e α => c.temp = .pvsyst ∧ Numeric a.module_parameters "module_efficiency" ∧ Numeric a.module_parameters "alpha_absorption" ∧
      Numeric a.temperature_model_parameters "u_c" ∧ Numeric a.temperature_model_parameters "u_v" ∧
      (entry a.temperature_model_parameters "u_c").getD 29 = fin uc ∧ (entry a.temperature_model_parameters "u_v").getD 0 = fin uv ∧
      (entry a.module_parameters "module_efficiency").getD 0.1 = fin e ∧ (entry a.module_parameters "alpha_absorption").getD 0.9 = fin α
  | .faiman u0 u1 => c.temp = .faiman ∧ Numeric a.temperature_model_parameters "u0" ∧ Numeric a.temperature_model_parameters "u1" ∧
      (entry a.temperature_model_parameters "u0").getD 25 = fin u0 ∧ (entry a.temperature_model_parameters "u1").getD 6.84 = fin u1

/-- Frame `w'` is `w` with other air temperatures and wind speeds; at time `i` the air is not warmer and the wind not weaker.  Temperatures of cells and modules are not given.
(Without a column the air is at 20 C and there is no wind.) -/
structure Cooler (w w' : DF) (i : ℕ) : Prop where
  index : w'.index = w.index
  others : ∀ name, name ≠ "temp_air" → name ≠ "wind_speed" → w'.cols.get? name = w.cols.get? name
  cell : w.cols.get? "cell_temperature" = none
  module : w.cols.get? "module_temperature" = none
  air : ∃ T T' : ℝ, colOr w "temp_air" 20 i = fin T ∧ colOr w' "temp_air" 20 i = fin T' ∧ T' ≤ T
  wind : ∃ v v' : ℝ, colOr w "wind_speed" 0 i = fin v ∧ colOr w' "wind_speed" 0 i = fin v' ∧ 0 ≤ v ∧ v ≤ v'

/-- Two runs by the same entry point on frames of which the second are the cooler ones at time `i`.  (Air temperature enters the refraction of the sun's position; `sun` asks that
this makes no difference.) -/
structure Pair (n : Entry) (c : Chain) (s : Site) (x x' : Input) (r r' q q' : Results) (i : ℕ) : Prop where
  first : n.run c s x r = .ok q
  second : n.run c s x' r' = .ok q'
  frame : ∀ k < c.system.arrays.length, ∀ w w', frameFor x k = some w → frameFor x' k = some w' → Cooler w w' i
  albedo : AllAlbedo x ↔ AllAlbedo x'
  poa : HasCols x ["poa_global"] ↔ HasCols x' ["poa_global"]
  sun : n ≠ .effective → q.solar_position = q'.solar_position

/-! ### Proofs -/

private theorem cell_le {c : Chain} {s : Site} {times times' : List ℝ} {a : PvArr} {w w' : DF} {poa e t t' : Ser} {i : ℕ} {m : Steady} (hm : Thermal c a m) (ok : m.Ok)
    (hw : Cooler w w' i) {G : ℝ} (hG : poa i = fin G) (h0 : 0 ≤ G) (h : CellSpec c s times a w poa e t) (h' : CellSpec c s times' a w' poa e t') :
    ∃ T T' : ℝ, t i = fin T ∧ t' i = fin T' ∧ T' ≤ T := by
  have key : ∀ {times : List ℝ} {w : DF} {t : Ser}, w.cols.get? "cell_temperature" = none → w.cols.get? "module_temperature" = none → CellSpec c s times a w poa e t →
      t i = m.cell (poa i) (colOr w "temp_air" 20 i) (colOr w "wind_speed" 0 i) := by
    intro times w t h1 h2 h
    unfold CellSpec at h
    rw [h1, h2] at h
    simp only [ite_self] at h
    cases m with
    | sapm ca cb d R =>
      obtain ⟨hc, b1, b2, b3, b4, b5⟩ := hm
      rw [hc] at h
      simp only [TempModel.name] at h
      rw [temp_sapm _ a _ b1 b2 b3 b4, b5] at h
      rw [← Except.ok.inj h]; rfl
    | pvsyst uc uv ef α =>
      obtain ⟨hc, b1, b2, b3, b4, b5, b6, b7, b8⟩ := hm
      rw [hc] at h
      simp only [TempModel.name] at h
      rw [temp_pvsyst _ a _ b1 b2 b3 b4, b5, b6, b7, b8] at h
      rw [← Except.ok.inj h]; rfl
    | faiman u0 u1 =>
      obtain ⟨hc, b1, b2, b3, b4⟩ := hm
      rw [hc] at h
      simp only [TempModel.name] at h
      rw [temp_faiman _ a _ b1 b2, b3, b4] at h
      rw [← Except.ok.inj h]; rfl
  have k1 := key hw.cell hw.module h
  have k2 := key ((hw.others _ (by simp) (by simp)).trans hw.cell) ((hw.others _ (by simp) (by simp)).trans hw.module) h'
  obtain ⟨T, T', e1, e2, hT⟩ := hw.air
  obtain ⟨v, v', e3, e4, hv, hvv⟩ := hw.wind
  rw [hG, e1, e3] at k1
  rw [hG, e2, e4] at k2
  obtain ⟨ρ, -, -, hρ⟩ := steady_resistance m ok
  have le := (steady_mono m ok G G T' T v v' h0 le_rfl hT hv hvv).1
  rw [hρ _ _ _ hv, hρ _ _ _ (hv.trans hvv), fin_le] at le
  rw [hρ _ _ _ hv] at k1
  rw [hρ _ _ _ (hv.trans hvv)] at k2
  exact ⟨_, _, k1, k2, le⟩

private theorem am_fun {c : Chain} {s : Site} {x x' : Input} {r r' : Results} {sp : SolPos} {am am' : AirMass} {times times' : List ℝ}
    (h : SkySpec c s x r sp am times) (h' : SkySpec c s x' r' sp am' times') : am = am' := by
  have : ∀ i, am.relative i = am'.relative i ∧ am.absolute i = am'.absolute i := fun i => by
    have := ok_inj (h.airmass i) (h'.airmass i)
    simpa using this
  cases am; cases am'
  simp only at this
  congr
  · exact funext fun i => (this i).1
  · exact funext fun i => (this i).2

private theorem optics_same {c : Chain} {s : Site} {sp : SolPos} {am : AirMass} {a : PvArr} {w w' ti ti' : DF} {i : ℕ} {aoi iam sm e aoi' iam' sm' e' : Ser} (hw : Cooler w w' i)
    (hd : ti'.cols.get? "poa_direct" = ti.cols.get? "poa_direct") (hf : ti'.cols.get? "poa_diffuse" = ti.cols.get? "poa_diffuse")
    (h : OpticsSpec c s sp am a w ti aoi iam sm e) (h' : OpticsSpec c s sp am a w' ti' aoi' iam' sm' e') : e = e' := by
  have g : OpticsSpec c s sp am a w ti' aoi' iam' sm' e' := by
    refine ⟨h'.angle, h'.modifier, ?_, h'.effective⟩
    have := h'.spectral
    cases hk : c.spectral <;> simp only [hk] at this ⊢
    · rwa [hw.others _ (by simp) (by simp)] at this
    · exact this
    · exact this
  exact (optics_fun (models_refl c) (sw_refl w) hd hf h g).2.2.2

private theorem poa_same {c : Chain} {s : Site} {sp : SolPos} {am : AirMass} {times : List ℝ} {A A' : Prop} {a : PvArr} {w w' ti ti' : DF} {i : ℕ} (hw : Cooler w w' i)
    (hA : A ↔ A') (h : PoaSpec c s sp am times A a w ti) (h' : PoaSpec c s sp am times A' a w' ti') : ti = ti' := by
  refine poa_fun (models_refl c) hA h ⟨?_⟩
  have := h'.columns
  have ea : colOr w' "albedo" a.albedo = colOr w "albedo" a.albedo := by unfold colOr; rw [hw.others _ (by simp) (by simp)]
  rwa [hw.others "dni" (by simp) (by simp), hw.others "ghi" (by simp) (by simp), hw.others "dhi" (by simp) (by simp), ea] at this

private theorem col_of {d : DF} {n : String} {v : Ser} {y : Fl} (h : d.cols.get? n = some v) : colOr d n y = v := by unfold colOr; rw [h]; rfl

/-- What two such runs have in common: the light on the cells and what heats them. -/
private theorem common {n : Entry} {c : Chain} {s : Site} {x x' : Input} {r r' q q' : Results} {i : ℕ} (h : Pair n c s x x' r r' q q' i) {k : ℕ} {a : PvArr}
    (ha : c.system.arrays[k]? = some a) {p : Ser} (hp : n.heat x q k = some p) : ∃ times times' w w' e t t', frameFor x k = some w ∧ frameFor x' k = some w' ∧
      part k q.effective_irradiance = some e ∧ part k q'.effective_irradiance = some e ∧ part k q.cell_temperature = some t ∧ part k q'.cell_temperature = some t' ∧
      CellSpec c s times a w p e t ∧ CellSpec c s times' a w' p e t' := by
  have hk := lt_of_get ha
  cases n with
  | weather =>
    obtain ⟨sp, am, times, f, s1, -, P⟩ := run_model_array h.first
    obtain ⟨sp', am', times', f', s1', -, P'⟩ := run_model_array h.second
    have hs := h.sun (by simp)
    rw [s1.stored.1, s1'.stored.1] at hs
    obtain rfl := Option.some.inj hs
    obtain rfl := am_fun s1 s1'
    obtain ⟨w, ti, aoi, iam, sm, e, t, d, h1, h2, h3, h4, h5, h6⟩ := P k a ha
    obtain ⟨w', ti', aoi', iam', sm', e', t', d', g1, g2, g3, g4, g5, g6⟩ := P' k a ha
    have hw := h.frame k hk w w' h1 g1
    have ht : times = times' := by rw [← s1.index w (frame_mem h1), ← s1'.index w' (frame_mem g1), hw.index]
    subst ht
    obtain rfl := poa_same hw h.albedo h3 g3
    obtain rfl := optics_same hw rfl rfl h4 g4
    simp only [Entry.heat, h2.total_irrad, Option.bind_some] at hp
    rw [col_of hp] at h5 g5
    exact ⟨times, times, w, w', e, t, t', h1, g1, h2.effective_irradiance, g2.effective_irradiance, h2.cell_temperature, g2.cell_temperature, h5, g5⟩
  | poa =>
    obtain ⟨sp, am, times, f, s1, -, P⟩ := run_poa_array h.first
    obtain ⟨sp', am', times', f', s1', -, P'⟩ := run_poa_array h.second
    have hs := h.sun (by simp)
    rw [s1.stored.1, s1'.stored.1] at hs
    obtain rfl := Option.some.inj hs
    obtain rfl := am_fun s1 s1'
    obtain ⟨w, ti, aoi, iam, sm, e, t, d, h1, h2, h3, h4, h5, h6⟩ := P k a ha
    obtain ⟨w', ti', aoi', iam', sm', e', t', d', g1, g2, g3, g4, g5, g6⟩ := P' k a ha
    have hw := h.frame k hk w w' h1 g1
    obtain rfl := optics_same hw (by rw [h3 _ (by simp), g3 _ (by simp), hw.others _ (by simp) (by simp)])
      (by rw [h3 _ (by simp), g3 _ (by simp), hw.others _ (by simp) (by simp)]) h4 g4
    simp only [Entry.heat, h1, Option.bind_some] at hp
    rw [col_of hp] at h5
    rw [col_of ((hw.others _ (by simp) (by simp)).trans hp)] at g5
    exact ⟨times, times', w, w', e, t, t', h1, g1, h2.effective_irradiance, g2.effective_irradiance, h2.cell_temperature, g2.cell_temperature, h5, g5⟩
  | effective =>
    obtain ⟨times, f, -, -, P⟩ := run_eff_array h.first
    obtain ⟨times', f', -, -, P'⟩ := run_eff_array h.second
    obtain ⟨w, e, t, d, h1, h2, h3, h4, h5, h6, h7⟩ := P k a ha
    obtain ⟨w', e', t', d', g1, g2, g3, g4, g5, g6, g7⟩ := P' k a ha
    have hw := h.frame k hk w w' h1 g1
    rw [hw.others _ (by simp) (by simp), h2] at g2
    obtain rfl := Option.some.inj g2
    simp only [Entry.heat, h1, Option.bind_some, h3] at hp
    by_cases hc : HasCols x ["poa_global"]
    · rw [if_pos hc] at hp h6
      rw [if_pos (h.poa.mp hc)] at g6
      rw [col_of hp] at h6
      rw [col_of ((hw.others _ (by simp) (by simp)).trans hp)] at g6
      exact ⟨times, times', w, w', e, t, t', h1, g1, h3, g3, h4, g4, h6, g6⟩
    · rw [if_neg hc] at hp h6
      rw [if_neg fun z => hc (h.poa.mpr z)] at g6
      obtain rfl := Option.some.inj hp
      exact ⟨times, times', w, w', e, t, t', h1, g1, h3, g3, h4, g4, h6, g6⟩

theorem ran_of {n : Entry} {c : Chain} {s : Site} {x : Input} {r q : Results} (h : n.run c s x r = .ok q) : Ran c s x r q := by
  cases n
  · exact .inl h
  · exact .inr (.inl h)
  · exact .inr (.inr h)

/-- An array at time `i` of a run: sensible coefficients, light and heat that are numbers and not negative, cells not so hot that the linear temperature factor is negative. -/
structure Sane (n : Entry) (c : Chain) (x : Input) (q : Results) (k i : ℕ) (a : PvArr) : Prop where
  thermal : ∃ m : Steady, Thermal c a m ∧ m.Ok
  heat : ∃ p G, n.heat x q k = some p ∧ p i = fin G ∧ 0 ≤ G
  watts : ∃ pdc0 γ tref N M e T : ℝ, Watts a pdc0 γ tref N M ∧ 0 ≤ pdc0 ∧ γ ≤ 0 ∧ 0 ≤ N ∧ 0 ≤ M ∧ Light q k i e T ∧ 0 ≤ e ∧ 0 ≤ 1 + γ * (T - tref)

/-- **C223a.** In cooler air and more wind the light on the cells is the same, and they are not warmer. -/
theorem cell_cooler {n : Entry} {c : Chain} {s : Site} {x x' : Input} {r r' q q' : Results} {i : ℕ} (h : Pair n c s x x' r r' q q' i) {k : ℕ} {a : PvArr}
    (ha : c.system.arrays[k]? = some a) {m : Steady} (hm : Thermal c a m) (ok : m.Ok) {p : Ser} {G : ℝ} (hp : n.heat x q k = some p) (hG : p i = fin G) (h0 : 0 ≤ G) :
    part k q.effective_irradiance = part k q'.effective_irradiance ∧
      ∃ t t' T T', part k q.cell_temperature = some t ∧ part k q'.cell_temperature = some t' ∧ t i = fin T ∧ t' i = fin T' ∧ T' ≤ T := by
  obtain ⟨times, times', w, w', e, t, t', h1, g1, h2, g2, h3, g3, h4, g4⟩ := common h ha hp
  obtain ⟨T, T', e1, e2, le⟩ := cell_le hm ok (h.frame k (lt_of_get ha) w w' h1 g1) hG h0 h4 g4
  exact ⟨h2.trans g2.symm, t, t', T, T', h3, g3, e1, e2, le⟩

private theorem brighter {n : Entry} {c : Chain} {s : Site} {x x' : Input} {r r' q q' : Results} {i : ℕ} (h : Pair n c s x x' r r' q q' i)
    (S : ∀ k a, c.system.arrays[k]? = some a → Sane n c x q k i a) (hl : ∃ f : ℝ, 0 ≤ f ∧ q.losses = some (fin f)) : Brighter c q q' i := by
  refine ⟨fun k a ha => ?_, hl⟩
  obtain ⟨⟨m, hm, ok⟩, ⟨p, G, hp, hG, h0⟩, pdc0, γ, tref, N, M, e, T, W, a1, a2, a3, a4, L, a5, a6⟩ := S k a ha
  obtain ⟨he, t, t', T1, T', b1, b2, b3, b4, le⟩ := cell_cooler h ha hm ok hp hG h0
  obtain ⟨E, t0, l1, l2, l3, l4⟩ := L
  rw [b1] at l2
  obtain rfl := Option.some.inj l2
  rw [b3] at l4
  obtain rfl := Fl.fin.inj l4
  exact ⟨e, T1, e, T', pdc0, γ, tref, N, M, W, ⟨E, t, l1, b1, l3, b3⟩, ⟨E, t', he ▸ l1, b2, l3, b4⟩, a5, le_rfl, le, a1, a2, a6, a3, a4⟩

/-- **C223b.** Array by array, DC power is no less. -/
theorem dc_cooler {n : Entry} {c : Chain} {s : Site} {x x' : Input} {r r' q q' : Results} {i : ℕ} (h : Pair n c s x x' r r' q q' i) (hdc : c.dc = some .pvwatts)
    (S : ∀ k a, c.system.arrays[k]? = some a → Sane n c x q k i a) (hl : ∃ f : ℝ, 0 ≤ f ∧ q.losses = some (fin f)) {k : ℕ} (hk : k < c.system.arrays.length) :
    ∃ P P', Power q k i P ∧ Power q' k i P' ∧ 0 ≤ P ∧ P ≤ P' :=
  dc_mono (ran_of h.first) (ran_of h.second) hdc (brighter h S hl) hk

/-- **C223c.** AC power of the system is no less, as long as the DC power is not more than 30 times the rating of the inverter. -/
theorem ac_cooler {n : Entry} {c : Chain} {s : Site} {x x' : Input} {r r' q q' : Results} {i : ℕ} (h : Pair n c s x x' r r' q q' i)
    (hdc : c.dc = some .pvwatts) (hac : c.ac = .pvwatts) (hn : c.system.arrays ≠ [])
    {pdc0 en er : ℝ} (hp : entry c.system.inverter_parameters "pdc0" = some (fin pdc0))
    (h1 : Numeric c.system.inverter_parameters "eta_inv_nom") (h2 : Numeric c.system.inverter_parameters "eta_inv_ref")
    (h3 : (entry c.system.inverter_parameters "eta_inv_nom").getD 0.96 = fin en)
    (h4 : (entry c.system.inverter_parameters "eta_inv_ref").getD 0.9637 = fin er) (p0 : 0 < pdc0) (n0 : 0 < en) (r0 : 0 < er)
    (S : ∀ k a, c.system.arrays[k]? = some a → Sane n c x q k i a) (hl : ∃ f : ℝ, 0 ≤ f ∧ q.losses = some (fin f))
    (small : ∀ P : ℕ → ℝ, (∀ k < c.system.arrays.length, Power q' k i (P k)) → ((List.range c.system.arrays.length).map P).sum ≤ 30 * pdc0) :
    ∃ ac ac' y y', q.ac = some ac ∧ q'.ac = some ac' ∧ ac i = fin y ∧ ac' i = fin y' ∧ 0 ≤ y ∧ y ≤ y' :=
  ac_mono (ran_of h.first) (ran_of h.second) hdc hac hn hp h1 h2 h3 h4 p0 n0 r0 (brighter h S hl) small

/-! ### Example: two arrays, an hour in cooler air and more wind -/

open Pvlib.Props.ChainTotal Pvlib.Props.ChainWitness Pvlib.Props.ChainConfig Pvlib.Props.ChainStrings

/-- One hour with this effective irradiance, air temperature and wind. -/
def breeze (e T v : ℝ) : DF := ⟨[12], [("effective_irradiance", fun _ => fin e), ("temp_air", fun _ => fin T), ("wind_speed", fun _ => fin v)]⟩

private theorem in_thermal {a : PvArr} {k : ℕ} (h : (wattsOf [3, 2]).arrays[k]? = some a) {c : Chain} (hc : c.temp = .sapm) : Thermal c a (.sapm (-3.56) (-0.075) 3 1000) := by
  have key : a.temperature_model_parameters = exArray.temperature_model_parameters := by
    match k, h with
    | 0, h => obtain rfl := Option.some.inj h; rfl
    | 1, h => obtain rfl := Option.some.inj h; rfl
  refine ⟨hc, ?_, ?_, ?_, ?_, ?_⟩ <;> rw [key, exTemp] <;> simp [entry, Numeric, PyDict.get?, ofNat_eq] <;> norm_num

private theorem hot : (0 : ℝ) < Real.exp (-3.56 + -0.075 * 1) ∧ Real.exp (-3.56 + -0.075 * 1) ≤ 0.25 := by
  refine ⟨Real.exp_pos _, ?_⟩
  rw [show (-3.56 : ℝ) + -0.075 * 1 = -3.635 by norm_num, Real.exp_neg, inv_le_comm₀ (Real.exp_pos _) (by norm_num)]
  have := Real.add_one_le_exp (3.635 : ℝ)
  norm_num at *
  linarith

example (n : Numerics) (t : Irradiance.PerezTable) (r : Results) : ∃ c q q' ac ac' y y',
    runModelFromEff c (exSite n t) (.tuple [breeze 500 30 1, breeze 500 30 1]) r = .ok q ∧
    runModelFromEff c (exSite n t) (.tuple [breeze 500 20 2, breeze 500 20 2]) r = .ok q' ∧
    q.ac = some ac ∧ q'.ac = some ac' ∧ ac 0 = fin y ∧ ac' 0 = fin y' ∧ 0 ≤ y ∧ y ≤ y' := by
  obtain ⟨D, c, hc⟩ := watts_chain [3, 2] (by simp)
  have E := ((pvwatts_preset _ c).mp hc).2.2
  have hs : c.system = wattsOf [3, 2] := by rw [E]
  have hlen : c.system.arrays.length = 2 := by rw [E]; rfl
  have run : ∀ T v : ℝ, ∃ q, runModelFromEff c (exSite n t) (.tuple [breeze 500 T v, breeze 500 T v]) r = .ok q := by
    intro T v
    exact run_eff_total (x := .tuple [breeze 500 T v, breeze 500 T v]) (pvwatts_able D hc (exSite n t)) (by rw [E]; simp [wattsOf])
      (by rw [E]; simp [Strict, Bare, Matches, frames, wattsOf]) (by
        intro d hd k hk
        simp only [frames, List.mem_cons, List.not_mem_nil, or_false, or_self] at hd
        subst hd
        simp only [List.mem_singleton] at hk
        subst hk
        simp [breeze, PyDict.get?]) r
  have fr : ∀ {T v : ℝ} {k : ℕ} {w : DF}, frameFor (.tuple [breeze 500 T v, breeze 500 T v]) k = some w → w = breeze 500 T v := by
    intro T v k w h
    match k, h with
    | 0, h => exact (Option.some.inj h).symm
    | 1, h => exact (Option.some.inj h).symm
  have hno : ∀ T v : ℝ, ¬ HasCols (.tuple [breeze 500 T v, breeze 500 T v]) ["poa_global"] := by
    intro T v h
    exact h (breeze 500 T v) (by simp [frames]) "poa_global" (by simp) (by simp [breeze, PyDict.get?])
  have hna : ∀ T v : ℝ, ¬ AllAlbedo (.tuple [breeze 500 T v, breeze 500 T v]) := by
    intro T v h
    exact h (breeze 500 T v) (by simp [frames]) "albedo" (by simp) (by simp [breeze, PyDict.get?])
  obtain ⟨q, h⟩ := run 30 1
  obtain ⟨q', h'⟩ := run 20 2
  have P : Pair .effective c (exSite n t) (.tuple [breeze 500 30 1, breeze 500 30 1]) (.tuple [breeze 500 20 2, breeze 500 20 2]) r r q q' 0 := by
    refine ⟨h, h', ?_, ⟨fun z => absurd z (hna _ _), fun z => absurd z (hna _ _)⟩, ⟨fun z => absurd z (hno _ _), fun z => absurd z (hno _ _)⟩, fun z => absurd rfl z⟩
    intro k _ w w' e1 e2
    obtain rfl := fr e1
    obtain rfl := fr e2
    refine ⟨rfl, ?_, by simp [breeze, PyDict.get?], by simp [breeze, PyDict.get?], ⟨30, 20, ?_, ?_, by norm_num⟩, ⟨1, 2, ?_, ?_, by norm_num, by norm_num⟩⟩
    · intro name n1 n2
      simp [breeze, PyDict.get?, n1.symm, n2.symm]
    all_goals simp [colOr, breeze, PyDict.get?]
  obtain ⟨f, hf, f0, f1⟩ := watts_losses hc (.inr (.inr h))
  have hot := hot
  have light : ∀ {T v : ℝ} {q : Results}, runModelFromEff c (exSite n t) (.tuple [breeze 500 T v, breeze 500 T v]) r = .ok q → ∀ k a, c.system.arrays[k]? = some a →
      Entry.effective.heat (.tuple [breeze 500 T v, breeze 500 T v]) q k = some (fun _ => fin 500) ∧ Light q k 0 500 (T + 500 * Real.exp (-3.56 + -0.075 * v) + 1.5) := by
    intro T v q h k a ha
    obtain ⟨times, f', -, -, p⟩ := run_eff_array h
    obtain ⟨w, e, t, d, g1, g2, g3, g4, g5, g6, g7⟩ := p k a ha
    obtain rfl := fr g1
    have he : e = fun _ => fin 500 := by simp [breeze, PyDict.get?] at g2; exact g2.symm
    subst he
    refine ⟨(if_neg (hno T v)).trans g3, _, t, g3, g4, rfl, ?_⟩
    rw [if_neg (hno _ _)] at g6
    obtain ⟨hm, b1, b2, b3, b4, b5⟩ := in_thermal (a := a) (k := k) (by rw [← hs]; exact ha) (c := c) (by rw [E])
    unfold CellSpec at g6
    rw [show (breeze 500 T v).cols.get? "cell_temperature" = none by simp [breeze, PyDict.get?],
      show (breeze 500 T v).cols.get? "module_temperature" = none by simp [breeze, PyDict.get?]] at g6
    simp only [ite_self, hm, TempModel.name] at g6
    rw [temp_sapm _ a _ b1 b2 b3 b4, b5] at g6
    rw [← Except.ok.inj g6]
    simp only [colOr, breeze, PyDict.get?, Temperature.sapmCell, Temperature.sapmCellFromModule, Temperature.sapmModule]
    simp [fin_div]
    norm_num
    ring
  have R' : Ran c (exSite n t) _ r q' := .inr (.inr h')
  obtain ⟨ac, ac', y, y', z⟩ := ac_cooler P (by rw [E]) (by rw [E]) (by rw [hs]; exact D.arrays)
    (pdc0 := 200) (en := 0.96) (er := 0.9637) (by rw [hs]; simp [wattsOf, entry, PyDict.get?]) (by rw [hs]; exact D.inverter _)
    (by rw [hs]; exact D.inverter _) (by rw [hs]; simp [wattsOf, entry, PyDict.get?, ofScientific_eq])
    (by rw [hs]; simp [wattsOf, entry, PyDict.get?, ofScientific_eq]) (by norm_num) (by norm_num) (by norm_num)
    (fun k a ha => by
      obtain ⟨m, m0, -, W⟩ := in_watts (by rw [← hs]; exact ha)
      obtain ⟨l1, l2⟩ := light h k a ha
      exact ⟨⟨_, in_thermal (by rw [← hs]; exact ha) (by rw [E]), by norm_num [Steady.Ok]⟩, ⟨_, 500, l1, rfl, by norm_num⟩,
        100, -0.003, 25, 1, m, 500, _, W, by norm_num, by norm_num, by norm_num, m0, l2, by norm_num, by
          obtain ⟨h1, h2⟩ := hot
          generalize Real.exp (-3.56 + -0.075 * 1) = u at h1 h2
          norm_num at *
          linarith⟩)
    ⟨f, f0, hf⟩ (by
      intro Q hQ
      have b : ∀ k < 2, Q k ≤ 300 := by
        intro k hk
        have ha := List.getElem?_eq_getElem (l := c.system.arrays) (i := k) (by omega)
        obtain ⟨m, m0, m3, W⟩ := in_watts (by rw [← hs]; exact ha)
        obtain ⟨-, l2⟩ := light h' k _ ha
        obtain ⟨p1, u1, u2⟩ := hQ k (by omega)
        obtain ⟨p2, v1, v2⟩ := dc_value R' (by rw [E]) ha W l2 ((same_losses (.inr (.inr h)) R' ha).symm.trans hf)
        rw [u1] at v1
        obtain rfl := Dc.series.inj (Option.some.inj v1)
        rw [u2, fin_inj] at v2
        rw [v2]
        have h1 : m * f ≤ 3 * 1 := mul_le_mul m3 f1 f0 (by norm_num)
        have h2 : 0 ≤ m * f := mul_nonneg m0 f0
        have h3 := Real.exp_pos (-3.56 + -0.075 * 2)
        generalize Real.exp (-3.56 + -0.075 * 2) = u at h3
        have h4 : 500 / 1000 * 100 * (1 + -0.003 * (20 + 500 * u + 1.5 - 25)) ≤ 100 := by norm_num; linarith
        have h5 := mul_le_mul_of_nonneg_right h4 h2
        linarith
      have := b 0 (by norm_num)
      have := b 1 (by norm_num)
      rw [hlen]
      simp [List.range_succ]
      linarith)
  exact ⟨c, q, q', ac, ac', y, y', h, h', z⟩

end Pvlib.Props.ChainWarm
end
