import Verif.Props.ChainWarm
import Verif.Props.Geometry
import Verif.Props.Iam

/-! # Property C237: more losses, less power -/

noncomputable section
open scoped Classical
namespace Pvlib.Props.ChainLosses
open Fl Pvlib.Tools Pvlib.PvFunctions Pvlib.PvSystem Pvlib.ModelChain Pvlib.Props.PvSystem Pvlib.Props.ChainRun
  Pvlib.Props.ChainArrays Pvlib.Props.ArrayClass Pvlib.Props.ChainFacts Pvlib.Props.ChainTare Pvlib.Props.ChainMono Pvlib.Props.ChainWarm

/-! ### Specification -/

/-- The ten kinds of PVWatts losses with their default percentages. -/
def kinds : List (String × ℝ) :=
  [("soiling", 2), ("shading", 3), ("snow", 0), ("mismatch", 2), ("wiring", 2), ("connections", 0.5), ("lid", 1.5), ("nameplate_rating", 1), ("age", 0),
    ("availability", 3)]

/-- `L` are the percentages of a chain with PVWatts losses: those given, else the defaults. -/
structure Percent (c : Chain) (L : String → ℝ) : Prop where
  model : c.losses = .pvwatts
  numbers : ∀ k ∈ kinds, Numeric c.system.losses_parameters k.1
  values : ∀ k ∈ kinds, (entry c.system.losses_parameters k.1).getD (fin k.2) = fin (L k.1)

/-- What the losses leave. -/
def left (L : String → ℝ) : ℝ := (kinds.map fun k => 1 - L k.1 / 100).prod

/-- The same chain, with another loss model and other loss parameters. -/
def ButLosses (c c' : Chain) : Prop :=
  c' = { c with losses := c'.losses, system := { c.system with losses_parameters := c'.system.losses_parameters } }

/-- The same chain, without losses by reflection. -/
def ButReflection (c c' : Chain) : Prop := c' = { c with aoi := .no_loss }

/-- A column of a DC result; DC power alone counts as `p_mp`. -/
def value (d : Dc) (name : String) : Option Ser :=
  match d with
  | .series p => if name = "p_mp" then some p else none
  | .frame f => f.get? name

/-! ### The factor -/

/-- **C237**: the losses leave the product of what each of them leaves; without a loss model, everything. -/
theorem factor {c : Chain} {s : Site} {x : Input} {r q : Results} (h : Ran c s x r q) (hn : c.system.arrays ≠ []) :
    (∀ L, Percent c L → q.losses = some (fin (left L))) ∧ (c.losses = .no_loss → q.losses = some 1) := by
  obtain ⟨f, hf, p⟩ := power_of h
  obtain ⟨_, _, d, -, -, -, d0, d1, -, -, h3⟩ := p 0 _ (List.getElem?_eq_getElem (List.length_pos_iff.mpr hn))
  unfold LossSpec at h3
  refine ⟨fun L hL => ?_, fun hl => ?_⟩
  · simp only [hL.model] at h3
    obtain ⟨l, e1, e2, -⟩ := h3
    have v := losses_value c.system fun k hk => by
      have : ∃ d, (k, d) ∈ kinds := by
        simp only [lossKeys, List.mem_cons, List.not_mem_nil, or_false] at hk
        rcases hk with rfl | rfl | rfl | rfl | rfl | rfl | rfl | rfl | rfl | rfl <;> simp [kinds]
      obtain ⟨d, hd⟩ := this
      exact hL.numbers _ hd
    have e3 := Except.ok.inj (v.symm.trans e1)
    have g := hL.values
    simp only [kinds, List.mem_cons, List.not_mem_nil, or_false, forall_eq_or_imp, forall_eq] at g
    obtain ⟨g1, g2, g3, g4, g5, g6, g7, g8, g9, g10⟩ := g
    simp only [ofNat_eq, one_eq, zero_eq] at e3
    rw [g1, g2, g3, g4, g5, g6, g7, g8, g9, g10] at e3
    have b := (PvLosses.pvwatts_losses_value [L "soiling", L "shading", L "snow", L "mismatch", L "wiring", L "connections", L "lid",
      L "nameplate_rating", L "age", L "availability"]).1
    simp only [List.map_cons, List.map_nil] at b
    rw [b] at e3
    rw [hf, e2, ← e3, ofNat_eq, fin_sub, fin_div (by norm_num)]
    congr 2
    unfold left PvLosses.kept kinds
    simp only [List.map_cons, List.map_nil]
    ring
  · simp only [hl] at h3
    rw [hf, h3.2]

private theorem prod_le {l : List (String × ℝ)} {L L' : String → ℝ} (h : ∀ k ∈ l, L k.1 ≤ L' k.1 ∧ L' k.1 ≤ 100) :
    0 ≤ (l.map fun k => 1 - L' k.1 / 100).prod ∧ (l.map fun k => 1 - L' k.1 / 100).prod ≤ (l.map fun k => 1 - L k.1 / 100).prod := by
  induction l with
  | nil => simp
  | cons k l ih =>
    obtain ⟨i0, i1⟩ := ih fun k hk => h k (List.mem_cons_of_mem _ hk)
    obtain ⟨h1, h2⟩ := h k List.mem_cons_self
    simp only [List.map_cons, List.prod_cons]
    have a : 0 ≤ 1 - L' k.1 / 100 := by linarith
    have b : 1 - L' k.1 / 100 ≤ 1 - L k.1 / 100 := by linarith
    exact ⟨mul_nonneg a i0, mul_le_mul b i1 i0 (a.trans b)⟩

/-- **C237**: larger percentages leave less; none leave everything, all of one kind nothing. -/
theorem left_anti {L L' : String → ℝ} (h : ∀ k ∈ kinds, L k.1 ≤ L' k.1 ∧ L' k.1 ≤ 100) : 0 ≤ left L' ∧ left L' ≤ left L := prod_le h

theorem left_le_one {L : String → ℝ} (h : ∀ k ∈ kinds, 0 ≤ L k.1 ∧ L k.1 ≤ 100) : 0 ≤ left L ∧ left L ≤ 1 := by
  have := left_anti (L := fun _ => 0) (L' := L) h
  simpa [left, kinds] using this

theorem left_all {L : String → ℝ} {k : String × ℝ} (hk : k ∈ kinds) (h : L k.1 = 100) : left L = 0 := by
  unfold left
  exact List.prod_eq_zero (List.mem_map.mpr ⟨k, hk, by rw [h]; norm_num⟩)

/-! ### Runs of two chains that differ in their losses -/

private theorem sky_same {c c' : Chain} {s : Site} {x : Input} {r r' : Results} {sp sp' : SolPos} {am am' : AirMass} {times times' : List ℝ}
    (hm : c'.solar_position_method = c.solar_position_method) (ha : c'.airmass_model = c.airmass_model)
    (h : SkySpec c s x r sp am times) (h' : SkySpec c' s x r' sp' am' times') : sp = sp' ∧ am = am' ∧ times = times' := by
  have g : SkySpec c s x r' sp' am' times' := ⟨h'.stored, h'.index, by rw [← hm]; exact h'.position, by rw [← ha]; exact h'.airmass⟩
  exact sky_fun (models_refl c) (fun w w' e e' => by rw [e] at e'; obtain rfl := Option.some.inj e'; exact sw_refl w) h g

/-- Up to the cell temperature, the arrays `a` of `c` and `a'` of `c'` are modelled alike. -/
structure Alike (c c' : Chain) (s : Site) (a a' : PvArr) : Prop where
  cell : ∀ {times : List ℝ} {w : DF} {poa e t : Ser}, CellSpec c' s times a' w poa e t → CellSpec c s times a w poa e t
  optics : ∀ {sp : SolPos} {am : AirMass} {w ti : DF} {aoi iam sm e : Ser}, OpticsSpec c' s sp am a' w ti aoi iam sm e →
      OpticsSpec c s sp am a w ti aoi iam sm e
  poa : ∀ {sp : SolPos} {am : AirMass} {times : List ℝ} {A : Prop} {w ti : DF}, PoaSpec c' s sp am times A a' w ti →
      PoaSpec c s sp am times A a w ti

/-- The data of the arrays before the losses, for two chains that are alike up to the cell temperature. -/
theorem before_of {n : Entry} {c c' : Chain} {s : Site} {x : Input} {r r' q q' : Results} (m1 : c'.solar_position_method = c.solar_position_method)
    (m2 : c'.airmass_model = c.airmass_model)
    (hs : ∀ (k : ℕ) a, c.system.arrays[k]? = some a → ∃ a', c'.system.arrays[k]? = some a' ∧ Alike c c' s a a') (h : n.run c s x r = .ok q)
    (h' : n.run c' s x r' = .ok q') : ∃ f f', q.losses = some f ∧ q'.losses = some f' ∧ ∀ (k : ℕ) a, c.system.arrays[k]? = some a →
      ∃ a', c'.system.arrays[k]? = some a' ∧ ∃ e t d d',
      part k q.effective_irradiance = some e ∧ part k q'.effective_irradiance = some e ∧ part k q.cell_temperature = some t ∧
      part k q'.cell_temperature = some t ∧ part k q.dc = some d ∧ part k q'.dc = some d' ∧ PowerSpec c s a e t f d ∧ PowerSpec c' s a' e t f' d' := by
  cases n with
  | weather =>
    obtain ⟨sp, am, times, f, s1, l1, P⟩ := run_model_array h
    obtain ⟨sp', am', times', f', s1', l1', P'⟩ := run_model_array h'
    obtain ⟨rfl, rfl, rfl⟩ := sky_same m1 m2 s1 s1'
    refine ⟨f, f', l1, l1', fun k a ha => ?_⟩
    obtain ⟨a', ha', ⟨cell, optics, poa⟩⟩ := hs k a ha
    obtain ⟨w, ti, aoi, iam, sm, e, t, d, h1, h2, h3, h4, h5, h6⟩ := P k a ha
    obtain ⟨w', ti', aoi', iam', sm', e', t', d', g1, g2, g3, g4, g5, g6⟩ := P' k a' ha'
    rw [h1] at g1
    obtain rfl := Option.some.inj g1
    obtain rfl := poa_fun (models_refl c) Iff.rfl h3 (poa g3)
    obtain ⟨rfl, rfl, rfl, rfl⟩ := optics_fun (models_refl c) (sw_refl w) rfl rfl h4 (optics g4)
    obtain rfl := cell_fun (models_refl c) (sw_refl w) h5 (cell g5)
    exact ⟨a', ha', e, t, d, d', h2.effective_irradiance, g2.effective_irradiance, h2.cell_temperature, g2.cell_temperature, h2.dc, g2.dc, h6, g6⟩
  | poa =>
    obtain ⟨sp, am, times, f, s1, l1, P⟩ := run_poa_array h
    obtain ⟨sp', am', times', f', s1', l1', P'⟩ := run_poa_array h'
    obtain ⟨rfl, rfl, rfl⟩ := sky_same m1 m2 s1 s1'
    refine ⟨f, f', l1, l1', fun k a ha => ?_⟩
    obtain ⟨a', ha', ⟨cell, optics, poa⟩⟩ := hs k a ha
    obtain ⟨w, ti, aoi, iam, sm, e, t, d, h1, h2, h3, h4, h5, h6⟩ := P k a ha
    obtain ⟨w', ti', aoi', iam', sm', e', t', d', g1, g2, g3, g4, g5, g6⟩ := P' k a' ha'
    rw [h1] at g1
    obtain rfl := Option.some.inj g1
    obtain ⟨rfl, rfl, rfl, rfl⟩ := optics_fun (models_refl c) (sw_refl w) (by rw [h3 _ (by simp), g3 _ (by simp)])
      (by rw [h3 _ (by simp), g3 _ (by simp)]) h4 (optics g4)
    obtain rfl := cell_fun (models_refl c) (sw_refl w) h5 (cell g5)
    exact ⟨a', ha', e, t, d, d', h2.effective_irradiance, g2.effective_irradiance, h2.cell_temperature, g2.cell_temperature, h2.dc, g2.dc, h6, g6⟩
  | effective =>
    obtain ⟨times, f, i1, l1, P⟩ := run_eff_array h
    obtain ⟨times', f', i1', l1', P'⟩ := run_eff_array h'
    refine ⟨f, f', l1, l1', fun k a ha => ?_⟩
    obtain ⟨a', ha', ⟨cell, optics, poa⟩⟩ := hs k a ha
    obtain ⟨w, e, t, d, h1, h2, h3, h4, h5, h6, h7⟩ := P k a ha
    obtain ⟨w', e', t', d', g1, g2, g3, g4, g5, g6, g7⟩ := P' k a' ha'
    rw [h1] at g1
    obtain rfl := Option.some.inj g1
    rw [h2] at g2
    obtain rfl := Option.some.inj g2
    have ht : times = times' := by rw [← i1 w (frame_mem h1), ← i1' w (frame_mem h1)]
    subst ht
    obtain rfl := cell_fun (models_refl c) (sw_refl w) h6 (cell g6)
    exact ⟨a', ha', e, t, d, d', h3, g3, h4, g4, h5, g5, h7, g7⟩

/-- The data of array `k` before the losses. -/
private theorem before {n : Entry} {c c' : Chain} {s : Site} {x : Input} {r r' q q' : Results} (B : ButLosses c c') (h : n.run c s x r = .ok q)
    (h' : n.run c' s x r' = .ok q') : ∃ f f', q.losses = some f ∧ q'.losses = some f' ∧ ∀ k a, c.system.arrays[k]? = some a → ∃ e t d d',
      part k q.effective_irradiance = some e ∧ part k q'.effective_irradiance = some e ∧ part k q.cell_temperature = some t ∧
      part k q'.cell_temperature = some t ∧ part k q.dc = some d ∧ part k q'.dc = some d' ∧ PowerSpec c s a e t f d ∧ PowerSpec c' s a e t f' d' := by
  have hs : c'.system.arrays = c.system.arrays := by rw [B]
  obtain ⟨f, f', e1, e2, P⟩ := before_of (by rw [B]) (by rw [B]) (fun k a ha => ⟨a, by rw [hs]; exact ha,
    ⟨fun h => by rw [B] at h; exact h, fun h => by rw [B] at h; exact ⟨h.angle, h.modifier, h.spectral, h.effective⟩, fun h => by rw [B] at h; exact ⟨h.columns⟩⟩⟩) h h'
  refine ⟨f, f', e1, e2, fun k a ha => ?_⟩
  obtain ⟨a', ha', P⟩ := P k a ha
  rw [hs, ha] at ha'
  obtain rfl := Option.some.inj ha'
  exact P

theorem value_eq {d d' : Dc} (h : DcEq d d') (name : String) : value d name = value d' name := by
  cases d <;> cases d' <;> simp only [DcEq] at h
  · rw [h]
  · exact h name

theorem one_right (x : Fl) : x = x * 1 := by cases x <;> simp [one_eq, infSign]

theorem kind {c : Chain} {d d' : Dc} {f : Fl} (h : LossSpec c d d' f) : (∃ p, d = .series p) ↔ ∃ p, d' = .series p := by
  unfold LossSpec at h
  cases hl : c.losses with
  | no_loss => simp only [hl] at h; rw [h.1]
  | pvwatts =>
    simp only [hl] at h
    obtain ⟨l, -, -, h⟩ := h
    cases d <;> cases d' <;> simp only at h <;> simp

theorem kind_eq {d d' : Dc} (h : DcEq d d') : (∃ p, d = .series p) ↔ ∃ p, d' = .series p := by
  cases d <;> cases d' <;> simp only [DcEq] at h <;> simp

theorem after {c : Chain} {d d' : Dc} {f : Fl} (h : LossSpec c d d' f) (name : String) :
    value d' name = (value d name).map fun v i => v i * f := by
  unfold LossSpec at h
  cases hl : c.losses with
  | no_loss =>
    simp only [hl] at h
    obtain ⟨rfl, rfl⟩ := h
    cases value d' name with
    | none => rfl
    | some v => exact congrArg some (funext fun i => one_right (v i))
  | pvwatts =>
    simp only [hl] at h
    obtain ⟨l, -, -, h⟩ := h
    cases d <;> cases d' <;> simp only at h
    · unfold value
      split_ifs
      · exact congrArg some (funext h)
      · rfl
    · exact h name

/-- **C237a.** Two runs from the same data of chains that differ in their losses only, whatever the models: array by array they have the same effective irradiance and cell
temperature, and every column of the DC results is what it would be without losses times the factor that the losses leave. -/
theorem same_but_losses {n : Entry} {c c' : Chain} {s : Site} {x : Input} {r r' q q' : Results} (B : ButLosses c c') (h : n.run c s x r = .ok q)
    (h' : n.run c' s x r' = .ok q') : ∃ f f', q.losses = some f ∧ q'.losses = some f' ∧ ∀ k < c.system.arrays.length,
      part k q.effective_irradiance = part k q'.effective_irradiance ∧ part k q.cell_temperature = part k q'.cell_temperature ∧
      ∃ d d', part k q.dc = some d ∧ part k q'.dc = some d' ∧ ((∃ p, d = .series p) ↔ ∃ p, d' = .series p) ∧ ∃ lossless : String → Option Ser, ∀ name,
        value d name = (lossless name).map (fun v i => v i * f) ∧ value d' name = (lossless name).map fun v i => v i * f' := by
  obtain ⟨f, f', hf, hf', P⟩ := before B h h'
  refine ⟨f, f', hf, hf', fun k hk => ?_⟩
  obtain ⟨e, t, d, d', e1, e2, t1, t2, d1, d2, ⟨a, b, h1, h2, h3⟩, ⟨a', b', g1, g2, g3⟩⟩ := P k _ (List.getElem?_eq_getElem hk)
  have g1' : DcSpec c s (c.system.arrays[k]'hk) e t a' := by rw [B] at g1; exact g1
  have g2' : OhmicSpec c (c.system.arrays[k]'hk) a' b' := by rw [B] at g2; exact g2
  have eq := ohmic_fun (models_refl c) (dc_fun (models_refl c) h1 g1') h2 g2'
  exact ⟨e1.trans e2.symm, t1.trans t2.symm, d, d', d1, d2, (kind h3).symm.trans ((kind_eq eq).trans (kind g3)), value b, fun name => ⟨after h3 name, by rw [value_eq eq]; exact after g3 name⟩⟩

/-- The losses of the second chain are no less than those of the first. -/
def NoLess (q q' : Results) : Prop := ∃ f f' : ℝ, q.losses = some (fin f) ∧ q'.losses = some (fin f') ∧ 0 ≤ f' ∧ f' ≤ f

/-- **C237**: chains with no smaller percentages, or with percentages instead of no loss model, have no less losses. -/
theorem noLess_of {c c' : Chain} {s s' : Site} {x x' : Input} {r r' q q' : Results} (h : Ran c s x r q) (h' : Ran c' s' x' r' q')
    (hn : c.system.arrays ≠ []) (hn' : c'.system.arrays ≠ []) {L' : String → ℝ} (p' : Percent c' L')
    (le : (∃ L, Percent c L ∧ ∀ k ∈ kinds, L k.1 ≤ L' k.1 ∧ L' k.1 ≤ 100) ∨ (c.losses = .no_loss ∧ ∀ k ∈ kinds, 0 ≤ L' k.1 ∧ L' k.1 ≤ 100)) :
    NoLess q q' := by
  rcases le with ⟨L, p, le⟩ | ⟨hl, le⟩
  · exact ⟨_, _, (factor h hn).1 L p, (factor h' hn').1 L' p', left_anti le⟩
  · exact ⟨1, _, by rw [(factor h hn).2 hl, one_eq], (factor h' hn').1 L' p', left_le_one le⟩

/-- **C237b.** With no less losses, no non-negative value of the DC results (power, current or voltage) is larger. -/
theorem dc_less {n : Entry} {c c' : Chain} {s : Site} {x : Input} {r r' q q' : Results} (B : ButLosses c c') (h : n.run c s x r = .ok q)
    (h' : n.run c' s x r' = .ok q') (hl : NoLess q q') {k : ℕ} (hk : k < c.system.arrays.length) : ∃ d d', part k q.dc = some d ∧ part k q'.dc = some d' ∧
      ((∃ p, d = .series p) ↔ ∃ p, d' = .series p) ∧ ∀ name v i (y : ℝ), value d name = some v → v i = fin y → 0 ≤ y → ∃ v' y', value d' name = some v' ∧ v' i = fin y' ∧ 0 ≤ y' ∧ y' ≤ y := by
  obtain ⟨f, f', e1, e2, P⟩ := same_but_losses B h h'
  obtain ⟨g, g', k1, k2, f0, fle⟩ := hl
  obtain rfl := Option.some.inj (k1.symm.trans e1)
  obtain rfl := Option.some.inj (k2.symm.trans e2)
  obtain ⟨-, -, d, d', d1, d2, kd, b, hb⟩ := P k hk
  refine ⟨d, d', d1, d2, kd, fun name v i y hv hi hy => ?_⟩
  obtain ⟨v1, v2⟩ := hb name
  rw [hv] at v1
  cases hn : b name with
  | none => rw [hn] at v1; simp at v1
  | some w =>
    rw [hn] at v1 v2
    simp only [Option.map_some, Option.some.injEq] at v1 v2
    rw [v1] at hi
    obtain ⟨z, z', ez, ez', ey⟩ := mul_eq_fin hi
    obtain rfl := Fl.fin.inj ez'
    refine ⟨_, z * g', v2, by simp only [ez, fin_mul], ?_⟩
    rcases (f0.trans fle).eq_or_lt with h0 | h0
    · have : g' = 0 := le_antisymm (h0 ▸ fle) f0
      subst this
      simp [hy]
    · have z0 : 0 ≤ z := by
        by_contra hz
        push Not at hz
        nlinarith
      exact ⟨mul_nonneg z0 f0, by rw [ey]; gcongr⟩

/-- **C237c.** With no less losses, chains of PVWatts modules and inverter have no more AC power, as long as the DC power is not more than 30 times the rating of the inverter
and not negative. -/
theorem ac_less {n : Entry} {c c' : Chain} {s : Site} {x : Input} {r r' q q' : Results} (B : ButLosses c c') (h : n.run c s x r = .ok q)
    (h' : n.run c' s x r' = .ok q') (hl : NoLess q q') (hac : c.ac = .pvwatts) (hn : c.system.arrays ≠ [])
    {pdc0 en er : ℝ} (hp : entry c.system.inverter_parameters "pdc0" = some (fin pdc0))
    (h1 : Numeric c.system.inverter_parameters "eta_inv_nom") (h2 : Numeric c.system.inverter_parameters "eta_inv_ref")
    (h3 : (entry c.system.inverter_parameters "eta_inv_nom").getD 0.96 = fin en)
    (h4 : (entry c.system.inverter_parameters "eta_inv_ref").getD 0.9637 = fin er) (p0 : 0 < pdc0) (n0 : 0 < en) (r0 : 0 < er)
    {i : ℕ} {P : ℕ → ℝ} (hP : ∀ k < c.system.arrays.length, Power q k i (P k) ∧ 0 ≤ P k) (small : ((List.range c.system.arrays.length).map P).sum ≤ 30 * pdc0) :
    ∃ ac ac' y y', q.ac = some ac ∧ q'.ac = some ac' ∧ ac i = fin y ∧ ac' i = fin y' ∧ 0 ≤ y' ∧ y' ≤ y := by
  have ei : c'.system.inverter_parameters = c.system.inverter_parameters := by rw [B]
  have ea : c'.system.arrays = c.system.arrays := by rw [B]
  obtain ⟨ac', ac, y', y, a1, a2, a3, a4, a5, a6⟩ := ac_rises (ran_of h') (ran_of h) (by rw [B]; exact hac) hac (by rw [ea]; exact hn) (by rw [ea]) ei.symm
    (by rw [ei]; exact hp) (by rw [ei]; exact h1) (by rw [ei]; exact h2) (by rw [ei]; exact h3) (by rw [ei]; exact h4) p0 n0 r0 (i := i) (by
      intro k hk
      rw [ea] at hk
      obtain ⟨⟨p, g1, g2⟩, g3⟩ := hP k hk
      obtain ⟨d, d', d1, d2, kd, le⟩ := dc_less B h h' hl hk
      obtain rfl := Option.some.inj (d1.symm.trans g1)
      obtain ⟨p', rfl⟩ := kd.mp ⟨p, rfl⟩
      obtain ⟨v, y, e1, e2, e3, e4⟩ := le "p_mp" p i (P k) (by simp [value]) g2 g3
      obtain rfl : p' = v := by simpa [value] using e1
      exact ⟨y, P k, ⟨p', d2, e2⟩, ⟨p, d1, g2⟩, e3, e4⟩) (by
      intro Q hQ
      rw [ea] at hQ ⊢
      have : (List.range c.system.arrays.length).map Q = (List.range c.system.arrays.length).map P := by
        refine List.map_congr_left fun k hk => ?_
        have hk := List.mem_range.mp hk
        obtain ⟨p, u1, u2⟩ := hQ k hk
        obtain ⟨⟨p', w1, w2⟩, -⟩ := hP k hk
        rw [u1] at w1
        obtain rfl := Dc.series.inj (Option.some.inj w1)
        rw [u2, fin_inj] at w2
        exact w2
      rw [this]
      exact small)
  exact ⟨ac, ac', y, y', a2, a1, a4, a3, a5, a6⟩

/-! ### Reflection -/

/-- The direct light on array `k`: computed by the run, or given in the data. -/
def direct (n : Entry) (x : Input) (q : Results) (k : ℕ) : Option Ser :=
  match n with
  | .weather => (part k q.total_irrad).bind fun ti => ti.cols.get? "poa_direct"
  | _ => (frameFor x k).bind fun w => w.cols.get? "poa_direct"

/-- Array `k` at time `i` of a run: direct light and the spectral factor are not negative, reflection takes a part of the direct light, and what is left is a number. -/
structure Reflects (n : Entry) (x : Input) (q : Results) (k i : ℕ) (e : ℝ) : Prop where
  direct : ∃ v D, direct n x q k = some v ∧ v i = fin D ∧ 0 ≤ D
  modifier : ∃ v m, part k q.aoi_modifier = some v ∧ v i = fin m ∧ m ≤ 1
  spectral : ∃ v m, part k q.spectral_modifier = some v ∧ v i = fin m ∧ 0 ≤ m
  effective : ∃ v, part k q.effective_irradiance = some v ∧ v i = fin e

private theorem more {c c' : Chain} {s : Site} {sp : SolPos} {am : AirMass} {a : PvArr} {w ti ti' : DF} {aoi iam sm e aoi' iam' sm' e' D : Ser} {i : ℕ}
    (B : ButReflection c c') (hd : ti.cols.get? "poa_direct" = some D) (hd' : ti'.cols.get? "poa_direct" = some D)
    (hf : ti'.cols.get? "poa_diffuse" = ti.cols.get? "poa_diffuse") (h : OpticsSpec c s sp am a w ti aoi iam sm e)
    (h' : OpticsSpec c' s sp am a w ti' aoi' iam' sm' e') {b m σ y : ℝ} (e1 : D i = fin b) (b0 : 0 ≤ b) (e2 : iam i = fin m) (m1 : m ≤ 1)
    (e3 : sm i = fin σ) (s0 : 0 ≤ σ) (e4 : e i = fin y) : ∃ y', e' i = fin y' ∧ y ≤ y' := by
  have i1 : iam' i = 1 := by
    have := h'.modifier
    rw [B] at this
    simpa using this i
  have i2 : sm' i = sm i := by
    have a1 := h.spectral
    have a2 := h'.spectral
    have : c'.spectral = c.spectral := by rw [B]
    rw [this] at a2
    cases hk : c.spectral <;> simp only [hk] at a1 a2
    · obtain ⟨p, p1, p2⟩ := a1
      obtain ⟨q, q1, q2⟩ := a2
      rw [p1] at q1
      obtain rfl := Option.some.inj q1
      exact ok_inj (q2 i) (p2 i)
    · exact ok_inj (a2 i) (a1 i)
    · rw [a1 i, a2 i]
  obtain ⟨v, u, fd, x1, x2, x3, x4⟩ := h.effective
  obtain ⟨v', u', fd', z1, z2, z3, z4⟩ := h'.effective
  rw [hd] at x1; rw [hd'] at z1; rw [hf, x2] at z2
  obtain rfl := Option.some.inj x1; obtain rfl := Option.some.inj z1; obtain rfl := Option.some.inj z2; obtain rfl := ok_inj x3 z3
  have g := x4 i
  rw [e4, e3, e1, e2] at g
  obtain ⟨A, C, g1, g2, g3⟩ := mul_eq_fin g.symm
  obtain rfl := Fl.fin.inj g1
  obtain ⟨E, F, g4, g5, g6⟩ := add_eq_fin g2
  rw [fin_mul] at g4
  obtain rfl := Fl.fin.inj g4
  refine ⟨_, by rw [z4 i, i2, e3, e1, i1, g5, one_eq, fin_mul, fin_add, fin_mul], ?_⟩
  rw [g3, g6]
  have : b * m ≤ b * 1 := by gcongr
  gcongr

/-- **C237d.** The same chain without losses by reflection has no less effective irradiance, and the same cell temperature (unless that is the SAM model's, which depends on
the light absorbed). -/
theorem no_reflection {n : Entry} {c c' : Chain} {s : Site} {x : Input} {r r' q q' : Results} (B : ButReflection c c') (hn : n ≠ .effective)
    (hT : c.temp ≠ .noct_sam) (h : n.run c s x r = .ok q) (h' : n.run c' s x r' = .ok q') {k : ℕ} (hk : k < c.system.arrays.length) :
    part k q.cell_temperature = part k q'.cell_temperature ∧
    ∀ (i : ℕ) (e : ℝ), Reflects n x q k i e → ∃ v' e', part k q'.effective_irradiance = some v' ∧ v' i = fin e' ∧ e ≤ e' := by
  have hs : c'.system.arrays = c.system.arrays := by rw [B]
  have cell : ∀ {times : List ℝ} {a : PvArr} {w : DF} {poa e e' t t' : Ser}, CellSpec c s times a w poa e t → CellSpec c' s times a w poa e' t' → t = t' := by
    intro times a w poa e e' t t' h h'
    rw [B] at h'
    refine cell_fun (models_refl c) (sw_refl w) h (poa := poa) (e := e) ?_
    unfold CellSpec at h' ⊢
    simp only [if_neg hT] at h' ⊢
    exact h'
  have poa : ∀ {sp : SolPos} {am : AirMass} {times : List ℝ} {A : Prop} {a : PvArr} {w ti : DF}, PoaSpec c' s sp am times A a w ti →
      PoaSpec c s sp am times A a w ti := by
    intro sp am times A a w ti h
    rw [B] at h
    exact ⟨h.columns⟩
  have m1 : c'.solar_position_method = c.solar_position_method := by rw [B]
  have m2 : c'.airmass_model = c.airmass_model := by rw [B]
  have ha := List.getElem?_eq_getElem hk
  cases n with
  | weather =>
    obtain ⟨sp, am, times, f, s1, l1, P⟩ := run_model_array h
    obtain ⟨sp', am', times', f', s1', l1', P'⟩ := run_model_array h'
    obtain ⟨rfl, rfl, rfl⟩ := sky_same m1 m2 s1 s1'
    obtain ⟨w, ti, aoi, iam, sm, e, t, d, h1, h2, h3, h4, h5, h6⟩ := P k _ ha
    obtain ⟨w', ti', aoi', iam', sm', e', t', d', g1, g2, g3, g4, g5, g6⟩ := P' k _ (by rw [hs]; exact ha)
    rw [h1] at g1
    obtain rfl := Option.some.inj g1
    obtain rfl := poa_fun (models_refl c) Iff.rfl h3 (poa g3)
    obtain rfl := cell h5 g5
    refine ⟨h2.cell_temperature.trans g2.cell_temperature.symm, fun i y R => ?_⟩
    obtain ⟨⟨D, b, r1, r2, r3⟩, ⟨v, m, r4, r5, r6⟩, ⟨u, σ, r7, r8, r9⟩, ⟨z, r10, r11⟩⟩ := R
    rw [h2.aoi_modifier] at r4; rw [h2.spectral_modifier] at r7; rw [h2.effective_irradiance] at r10
    obtain rfl := Option.some.inj r4; obtain rfl := Option.some.inj r7; obtain rfl := Option.some.inj r10
    simp only [direct, h2.total_irrad, Option.bind_some] at r1
    obtain ⟨y', k1, k2⟩ := more B r1 r1 rfl h4 g4 r2 r3 r5 r6 r8 r9 r11
    exact ⟨e', y', g2.effective_irradiance, k1, k2⟩
  | poa =>
    obtain ⟨sp, am, times, f, s1, l1, P⟩ := run_poa_array h
    obtain ⟨sp', am', times', f', s1', l1', P'⟩ := run_poa_array h'
    obtain ⟨rfl, rfl, rfl⟩ := sky_same m1 m2 s1 s1'
    obtain ⟨w, ti, aoi, iam, sm, e, t, d, h1, h2, h3, h4, h5, h6⟩ := P k _ ha
    obtain ⟨w', ti', aoi', iam', sm', e', t', d', g1, g2, g3, g4, g5, g6⟩ := P' k _ (by rw [hs]; exact ha)
    rw [h1] at g1
    obtain rfl := Option.some.inj g1
    obtain rfl := cell h5 g5
    refine ⟨h2.cell_temperature.trans g2.cell_temperature.symm, fun i y R => ?_⟩
    obtain ⟨⟨D, b, r1, r2, r3⟩, ⟨v, m, r4, r5, r6⟩, ⟨u, σ, r7, r8, r9⟩, ⟨z, r10, r11⟩⟩ := R
    rw [h2.aoi_modifier] at r4; rw [h2.spectral_modifier] at r7; rw [h2.effective_irradiance] at r10
    obtain rfl := Option.some.inj r4; obtain rfl := Option.some.inj r7; obtain rfl := Option.some.inj r10
    simp only [direct, h1, Option.bind_some] at r1
    obtain ⟨y', k1, k2⟩ := more B (by rw [h3 _ (by simp)]; exact r1) (by rw [g3 _ (by simp)]; exact r1) (by rw [h3 _ (by simp), g3 _ (by simp)]) h4 g4
      r2 r3 r5 r6 r8 r9 r11
    exact ⟨e', y', g2.effective_irradiance, k1, k2⟩
  | effective => exact absurd rfl hn

/-- **C237e.** ... and, with PVWatts modules, no less DC power. -/
theorem no_reflection_dc {n : Entry} {c c' : Chain} {s : Site} {x : Input} {r r' q q' : Results} (B : ButReflection c c') (hn : n ≠ .effective)
    (hT : c.temp ≠ .noct_sam) (hdc : c.dc = some .pvwatts) (h : n.run c s x r = .ok q) (h' : n.run c' s x r' = .ok q') {k : ℕ} {a : PvArr}
    (ha : c.system.arrays[k]? = some a) {pdc0 γ tref N M e T f : ℝ} (W : Watts a pdc0 γ tref N M) (L : Light q k i e T) (R : Reflects n x q k i e)
    (hf : q.losses = some (fin f)) (f0 : 0 ≤ f) (p0 : 0 ≤ pdc0) (t0 : 0 ≤ 1 + γ * (T - tref)) (N0 : 0 ≤ N) (M0 : 0 ≤ M) :
    ∃ P P', Power q k i P ∧ Power q' k i P' ∧ P ≤ P' := by
  have hk := lt_of_get ha
  obtain ⟨ht, he⟩ := no_reflection B hn hT h h' hk
  obtain ⟨v', e', l1, l2, l3⟩ := he i e R
  obtain ⟨E, t, k1, k2, k3, k4⟩ := L
  have ha' : c'.system.arrays[k]? = some a := by rw [B]; exact ha
  have hf' : q'.losses = some (fin f) := by
    obtain ⟨f1, e1, p1⟩ := power_of (ran_of h)
    obtain ⟨f2, e2, p2⟩ := power_of (ran_of h')
    obtain ⟨_, _, d, -, -, -, d0, d1, -, -, h3⟩ := p1 k a ha
    obtain ⟨_, _, d', -, -, -, d0', d1', -, -, h3'⟩ := p2 k a ha'
    rw [← hf, e1, e2]
    rw [B] at h3'
    unfold LossSpec at h3 h3'
    cases hl : c.losses with
    | no_loss => simp only [hl] at h3 h3'; rw [h3.2, h3'.2]
    | pvwatts =>
      simp only [hl] at h3 h3'
      obtain ⟨l, u1, u2, -⟩ := h3
      obtain ⟨l', v1, v2, -⟩ := h3'
      rw [u2, v2, ok_inj u1 v1]
  refine ⟨_, _, dc_value (ran_of h) hdc ha W ⟨E, t, k1, k2, k3, k4⟩ hf,
    dc_value (ran_of h') (by rw [B]; exact hdc) ha' W ⟨v', t, l1, by rw [← ht]; exact k2, l2, k4⟩ hf', ?_⟩
  gcongr

/-! ### Examples -/

open Pvlib.Props.ChainTotal Pvlib.Props.ChainWitness Pvlib.Props.ChainConfig Pvlib.Props.ChainStrings

/-- The default percentages. -/
def usual (k : String) : ℝ := (kinds.lookup k).getD 0

theorem usual_bounds : ∀ k ∈ kinds, 0 ≤ usual k.1 ∧ usual k.1 ≤ 100 := by
  intro k hk
  simp only [kinds, List.mem_cons, List.not_mem_nil, or_false] at hk
  rcases hk with rfl | rfl | rfl | rfl | rfl | rfl | rfl | rfl | rfl | rfl <;> simp [usual, kinds, List.lookup] <;> norm_num

theorem usual_percent {c : Chain} (h : c.losses = .pvwatts) (hs : c.system.losses_parameters = []) : Percent c usual := by
  refine ⟨h, fun k _ => ?_, ?_⟩
  · intro v hv
    rw [hs] at hv
    simp [PyDict.get?] at hv
  · intro k hk
    rw [hs]
    simp only [kinds, List.mem_cons, List.not_mem_nil, or_false] at hk
    rcases hk with rfl | rfl | rfl | rfl | rfl | rfl | rfl | rfl | rfl | rfl <;> simp [entry, PyDict.get?, usual, kinds, List.lookup]

private theorem run_hour {c : Chain} (able : ∀ s, AblePower c s) (hs : c.system = wattsOf [3, 2]) (n : Numerics) (t : Irradiance.PerezTable) (r : Results) (e T : ℝ) :
    ∃ q, runModelFromEff c (exSite n t) (.tuple [hour e T, hour e T]) r = .ok q ∧ ∀ k < 2, Light q k 0 e T := by
  obtain ⟨q, h⟩ := run_eff_total (x := .tuple [hour e T, hour e T]) (able (exSite n t)) (by rw [hs]; simp [wattsOf])
    (by rw [hs]; simp [Strict, Bare, Matches, frames, wattsOf]) (by
      intro d hd k hk
      simp only [frames, List.mem_cons, List.not_mem_nil, or_false, or_self] at hd
      subst hd
      simp only [List.mem_singleton] at hk
      subst hk
      simp [hour, PyDict.get?]) r
  obtain ⟨times, f, -, hl, p⟩ := run_eff_array h
  refine ⟨q, h, fun k hk => ?_⟩
  have hlen : c.system.arrays.length = 2 := by rw [hs]; rfl
  obtain ⟨w, e', t', d, g1, g2, g3, g4, g5, g6, g7⟩ := p k _ (List.getElem?_eq_getElem (by omega))
  have hw : w = hour e T := by
    have : k = 0 ∨ k = 1 := by omega
    rcases this with rfl | rfl <;> exact (Option.some.inj g1).symm
  subst hw
  have he : e' = fun _ => fin e := by simp [hour, PyDict.get?] at g2; exact g2.symm
  have ht : t' = fun _ => fin T := by simpa [CellSpec, hour, PyDict.get?] using g6
  exact ⟨e', t', g3, g4, by rw [he], by rw [ht]⟩

/-- Two arrays of PVWatts modules, without losses and with the default losses. -/
example (n : Numerics) (t : Irradiance.PerezTable) (r : Results) : ∃ c c' q q' ac ac' y y', ButLosses c c' ∧ c.losses = .no_loss ∧ c'.losses = .pvwatts ∧
    runModelFromEff c (exSite n t) (.tuple [hour 800 40, hour 800 40]) r = .ok q ∧ runModelFromEff c' (exSite n t) (.tuple [hour 800 40, hour 800 40]) r = .ok q' ∧
    q.ac = some ac ∧ q'.ac = some ac' ∧ ac 0 = fin y ∧ ac' 0 = fin y' ∧ 0 ≤ y' ∧ y' ≤ y := by
  obtain ⟨D, c', hc⟩ := watts_chain [3, 2] (by simp)
  have E := ((pvwatts_preset _ c').mp hc).2.2
  have hs : c'.system = wattsOf [3, 2] := by rw [E]
  have A := pvwatts_able D hc
  obtain ⟨q', h', l'⟩ := run_hour A hs n t r 800 40
  obtain ⟨q, h, l⟩ := run_hour (c := { c' with losses := .no_loss }) (fun s => ⟨(A s).temp, (A s).delta, (A s).dc, (A s).ohmic, .inl rfl, (A s).ac⟩) hs n t r 800 40
  have hl : c'.losses = .pvwatts := by rw [E]
  have B : ButLosses { c' with losses := .no_loss } c' := rfl
  have R : Ran { c' with losses := .no_loss } _ _ r q := .inr (.inr h)
  have R' : Ran c' _ _ r q' := .inr (.inr h')
  have nl : NoLess q q' := noLess_of R R' (by simp only [hs]; simp [wattsOf]) (by rw [hs]; simp [wattsOf]) (usual_percent hl (by rw [hs]; rfl))
    (.inr ⟨rfl, usual_bounds⟩)
  have f1 : q.losses = some (fin 1) := by rw [(factor R (by simp only [hs]; simp [wattsOf])).2 rfl, one_eq]
  have hlen : c'.system.arrays.length = 2 := by rw [hs]; rfl
  have P : ∀ k < 2, ∃ P, Power q k 0 P ∧ 0 ≤ P ∧ P ≤ 300 := by
    intro k hk
    have ha := List.getElem?_eq_getElem (l := c'.system.arrays) (i := k) (by omega)
    obtain ⟨m, m0, m3, W⟩ := in_watts (by rw [← hs]; exact ha)
    have hdc : c'.dc = some .pvwatts := by rw [E]
    exact ⟨_, dc_value R hdc ha W (l k hk) f1, by norm_num; linarith, by norm_num; linarith⟩
  obtain ⟨P0, a0, b0, d0⟩ := P 0 (by norm_num)
  obtain ⟨P1, a1, b1, d1⟩ := P 1 (by norm_num)
  obtain ⟨ac, ac', y, y', z⟩ := ac_less (n := .effective) B h h' nl (by simp only [E]) (by simp only [hs]; simp [wattsOf])
    (pdc0 := 200) (en := 0.96) (er := 0.9637) (by simp only [hs]; simp [wattsOf, entry, PyDict.get?]) (by simp only [hs]; exact D.inverter _)
    (by simp only [hs]; exact D.inverter _) (by simp only [hs]; simp [wattsOf, entry, PyDict.get?, ofScientific_eq])
    (by simp only [hs]; simp [wattsOf, entry, PyDict.get?, ofScientific_eq]) (by norm_num) (by norm_num) (by norm_num) (i := 0)
    (P := fun k => if k = 0 then P0 else P1) (by
      intro k hk
      simp only [hlen] at hk
      have : k = 0 ∨ k = 1 := by omega
      rcases this with rfl | rfl
      · exact ⟨a0, b0⟩
      · exact ⟨a1, b1⟩) (by
      simp only [hlen]
      simp [List.range_succ]
      linarith)
  exact ⟨_, c', q, q', ac, ac', y, y', B, rfl, hl, h, h', z⟩

/-- Two sides of an hour of light at an angle. -/
def glance : DF := ⟨[12], [("poa_global", fun _ => fin 900), ("poa_direct", fun _ => fin 700), ("poa_diffuse", fun _ => fin 200),
  ("cell_temperature", fun _ => fin 40)]⟩

/-- The sun in the east. -/
def eastern (n : Numerics) (t : Irradiance.PerezTable) : Site :=
  { exSite n t with solarPosition := fun _ _ _ _ => .ok ⟨fun _ => fin 60, fun _ => fin 60, fun _ => fin 100⟩ }

private theorem angle_fin (t a z s : ℝ) : ∃ A, Irradiance.aoi (fin t) (fin a) (fin z) (fin s) = fin A ∧ |A| ≤ 180 := by
  have hd := abs_le.mp (Spec.dot_dirVec_le t a z s)
  unfold Irradiance.aoi
  rw [Geometry.aoiProjection_dot]
  generalize Spec.dot (Spec.dirVec t a) (Spec.dirVec z s) = d at *
  have : arccos (fin d) = fin (Real.arccos d) := by
    unfold arccos
    simp [hd.1, hd.2]
  rw [this]
  refine ⟨Real.arccos d * (180 / Real.pi), ?_, ?_⟩
  · simp [degrees]
  · rw [abs_of_nonneg (mul_nonneg (Real.arccos_nonneg d) (by have := Real.pi_pos; positivity))]
    calc Real.arccos d * (180 / Real.pi) ≤ Real.pi * (180 / Real.pi) := by
          have := Real.arccos_le_pi d
          have := Real.pi_pos
          gcongr
      _ = 180 := by have := Real.pi_pos; field_simp

/-- A module seen by the sun at an angle, with and without Schlick's reflection. -/
example (n : Numerics) (t : Irradiance.PerezTable) (r : Results) : ∃ c c' q q' P P', ButReflection c c' ∧ c.aoi = .schlick ∧
    runModelFromPoa c (eastern n t) (.frame glance) r = .ok q ∧ runModelFromPoa c' (eastern n t) (.frame glance) r = .ok q' ∧
    Power q 0 0 P ∧ Power q' 0 0 P' ∧ P ≤ P' := by
  obtain ⟨c, hc⟩ := exChain
  have E := ((pvwatts_preset exSystem c).mp hc).2.2
  have hs : c.system = exSystem := by rw [E]
  have A := pvwatts_able exData hc (eastern n t)
  have O := pvwatts_optics (s := eastern n t) (x := .frame glance) exData hc fun _ _ _ => ⟨_, rfl⟩
  have run : ∀ m, (m = .no_loss ∨ m = .schlick) → ∃ q, runModelFromPoa { c with aoi := m } (eastern n t) (.frame glance) r = .ok q := by
    intro m hm
    refine run_poa_total (c := { c with aoi := m }) (x := .frame glance) ⟨A.temp, A.delta, A.dc, A.ohmic, A.losses, A.ac⟩ ⟨O.sun, O.airmass, ?_, O.spectral, O.fd⟩
      (by simp only [hs]; simp [exSystem]) (by simp only [hs]; simp [Strict, exSystem, Bare]) ?_ r
    · rcases hm with rfl | rfl
      · exact .inl rfl
      · exact .inr fun a ha v => ⟨_, (iam_models a (eastern n t).interpolator v "schlick").2.2.2.1 (by decide +kernel)⟩
    · intro d hd k hk
      simp only [frames, List.mem_cons, List.not_mem_nil, or_false] at hd
      subst hd
      simp only [List.mem_cons, List.not_mem_nil, or_false] at hk
      rcases hk with rfl | rfl | rfl <;> simp [glance, PyDict.get?]
  obtain ⟨q, h⟩ := run .schlick (.inr rfl)
  obtain ⟨q', h'⟩ := run .no_loss (.inl rfl)
  have hsp : c.spectral = .no_loss := by rw [E]
  have hdc : c.dc = some .pvwatts := by rw [E]
  have hlo : c.losses = .pvwatts := by rw [E]
  have a0 : c.system.arrays[0]? = some exArray := by rw [hs]; rfl
  have B : ButReflection { c with aoi := .schlick } { c with aoi := .no_loss } := rfl
  have R : Ran { c with aoi := .schlick } _ _ r q := .inr (.inl h)
  have hf := (factor R (by simp only [hs]; simp [exSystem])).1 usual (usual_percent hlo (by simp only [hs]; rfl))
  have f0 : 0 ≤ left usual := (left_le_one usual_bounds).1
  obtain ⟨sp, am, times, f, s1, l1, p⟩ := run_poa_array h
  obtain ⟨w, ti, aoi, iam, sm, e, T, d, h1, h2, h3, h4, h5, h6⟩ := p 0 _ a0
  obtain rfl : glance = w := by simpa [frameFor] using h1
  obtain ⟨d0, -, hpos⟩ := s1.position
  obtain rfl := Except.ok.inj hpos
  obtain ⟨ang, g1, g2⟩ := angle_fin 30 180 60 100
  have e1 : aoi 0 = fin ang := by
    rw [h4.angle 0, aoi_fixed exArray (t := 30) (az0 := 180) rfl, ofNat_eq, ofNat_eq, g1]
  obtain ⟨m, k1, -, k2⟩ := Iam.schlick_isIam.range ang g2
  have e2 : iam 0 = fin m := by
    have := h4.modifier
    simp only [if_neg (show AoiModel.schlick ≠ .no_loss by decide)] at this
    have z := this 0
    rw [e1] at z
    have y := (iam_models exArray (eastern n t).interpolator (fin ang) "schlick").2.2.2.1 (by decide +kernel)
    rw [← k1]
    exact ok_inj z y
  have e3 : sm 0 = 1 := by
    have := h4.spectral
    simp only [hsp] at this
    exact this 0
  obtain ⟨v, u, fd, x1, x2, x3, x4⟩ := h4.effective
  rw [h3 _ (by simp)] at x1 x2
  obtain rfl : v = fun _ => fin 700 := by simpa [glance, PyDict.get?] using x1.symm
  obtain rfl : u = fun _ => fin 200 := by simpa [glance, PyDict.get?] using x2.symm
  obtain rfl : fd = 1 := by simpa [fdOf, exModule, PyDict.get?] using x3.symm
  have e4 : e 0 = fin (1 * (700 * m + 1 * 200)) := by
    rw [x4 0, e2, e3]
    simp only [one_eq, fin_mul, fin_add]
  have e5 : T = fun _ => fin 40 := by simpa [CellSpec, glance, PyDict.get?] using h5
  have W : Watts exArray 100 (-0.003) 25 1 1 := by
    refine ⟨?_, ?_, ?_, ?_, ?_, rfl, rfl⟩
    · simp [exModule, entry, PyDict.get?]
    · simp [exModule, entry, PyDict.get?]
    · intro k _
      exact (exNumeric exArray (by simp [exSystem]) k).1
    · simp [exModule, entry, PyDict.get?]
    · simp [exModule, PyDict.get?]
  obtain ⟨P, P', z⟩ := no_reflection_dc (n := .poa) B (by simp) (by simp [E]) hdc h h' a0 W
    ⟨e, T, h2.effective_irradiance, h2.cell_temperature, e4, by rw [e5]⟩
    ⟨⟨fun _ => fin 700, 700, by simp [direct, frameFor, glance, PyDict.get?], rfl, by norm_num⟩, ⟨iam, m, h2.aoi_modifier, e2, k2⟩,
      ⟨sm, 1, h2.spectral_modifier, by rw [e3, one_eq], by norm_num⟩, ⟨e, h2.effective_irradiance, e4⟩⟩ hf f0 (by norm_num) (by norm_num) (by norm_num) (by norm_num)
  exact ⟨_, _, q, q', P, P', B, rfl, h, h', z⟩

end Pvlib.Props.ChainLosses
end
