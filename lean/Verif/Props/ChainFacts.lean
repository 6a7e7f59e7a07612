import Verif.Props.ChainArrays
import Verif.Props.ChainConfig
import Verif.Props.Inverter

/-! # Properties C97 (independence of the arrays), C98 (consistency of the entry points), C99 (the PVWatts chain) -/

noncomputable section
open scoped Classical
namespace Pvlib.Props.ChainFacts
open Fl Pvlib.Tools Pvlib.PvFunctions Pvlib.PvSystem Pvlib.ModelChain Pvlib.Props.PvSystem Pvlib.Props.ChainRun
  Pvlib.Props.ChainArrays Pvlib.Props.ArrayClass

/-! ### Specification -/

/-- Two DC results hold the same values (the order of columns does not matter). -/
def DcEq : Dc → Dc → Prop
  | .series p, .series q => p = q
  | .frame f, .frame g => ∀ name, f.get? name = g.get? name
  | _, _ => False

/-- Two chains have the same models and the same loss parameters; their systems may have different arrays. -/
def SameModels (c c' : Chain) : Prop :=
  c' = { c with system := c'.system } ∧ c'.system.losses_parameters = c.system.losses_parameters

/-- Two frames agree on everything a run reads apart from irradiance. -/
def SameWeather (w w' : DF) : Prop :=
  w'.index = w.index ∧ ∀ name ∈ ["pressure", "temp_air", "wind_speed", "precipitable_water", "cell_temperature",
    "module_temperature"], w'.cols.get? name = w.cols.get? name

/-- From the effective irradiance on, the results of array `k` of one run are those of array `k'` of the other. -/
structure SamePower (r r' : Results) (k k' : ℕ) : Prop where
  effective_irradiance : part k r.effective_irradiance = part k' r'.effective_irradiance
  cell_temperature : part k r.cell_temperature = part k' r'.cell_temperature
  dc : ∃ d d', part k r.dc = some d ∧ part k' r'.dc = some d' ∧ DcEq d d'

/-- The results of array `k` of one run are those of array `k'` of the other. -/
structure SameArray (r r' : Results) (k k' : ℕ) : Prop extends SamePower r r' k k' where
  aoi : part k r.aoi = part k' r'.aoi
  aoi_modifier : part k r.aoi_modifier = part k' r'.aoi_modifier
  spectral_modifier : part k r.spectral_modifier = part k' r'.spectral_modifier

/-! ### The specification of a run determines its results -/

theorem ok_inj {α : Type} {x : Except PyErr α} {a b : α} (h : x = .ok a) (h' : x = .ok b) : a = b := by
  rw [h] at h'; exact Except.ok.inj h'

theorem poa_fun {c c' : Chain} {s : Site} {sp : SolPos} {am : AirMass} {times : List ℝ} {A A' : Prop} {a : PvArr} {w ti ti' : DF}
    (hc : SameModels c c') (hA : A ↔ A') (h : PoaSpec c s sp am times A a w ti) (h' : PoaSpec c' s sp am times A' a w ti') : ti = ti' := by
  obtain ⟨dni, ghi, dhi, h1, h2, h3, p, rfl, hp⟩ := h.columns
  obtain ⟨dni', ghi', dhi', g1, g2, g3, p', rfl, hp'⟩ := h'.columns
  rw [h1] at g1; rw [h2] at g2; rw [h3] at g3
  obtain rfl := Option.some.inj g1; obtain rfl := Option.some.inj g2; obtain rfl := Option.some.inj g3
  have hm : c'.transposition_model = c.transposition_model := by rw [hc.1]
  have : p = p' := by
    funext i
    have e := hp' i
    rw [hm] at e
    have hA' : A = A' := propext hA
    subst hA'
    exact ok_inj (hp i) e
  rw [this]

theorem optics_fun {c c' : Chain} {s : Site} {sp : SolPos} {am : AirMass} {a : PvArr} {w w' ti ti' : DF}
    {aoi iam sm e aoi' iam' sm' e' : Ser} (hc : SameModels c c') (hw : SameWeather w w')
    (hd : ti'.cols.get? "poa_direct" = ti.cols.get? "poa_direct") (hf : ti'.cols.get? "poa_diffuse" = ti.cols.get? "poa_diffuse")
    (h : OpticsSpec c s sp am a w ti aoi iam sm e) (h' : OpticsSpec c' s sp am a w' ti' aoi' iam' sm' e') :
    aoi = aoi' ∧ iam = iam' ∧ sm = sm' ∧ e = e' := by
  have hm : c'.aoi = c.aoi := by rw [hc.1]
  have hs : c'.spectral = c.spectral := by rw [hc.1]
  have e1 : aoi = aoi' := funext fun i => (h.angle i).trans (h'.angle i).symm
  subst e1
  have e2 : iam = iam' := by
    have a1 := h.modifier
    have a2 := h'.modifier
    rw [hm] at a2
    by_cases hn : c.aoi = .no_loss
    · simp only [hn, if_true] at a1 a2
      exact funext fun i => (a1 i).trans (a2 i).symm
    · simp only [hn, if_false] at a1 a2
      exact funext fun i => ok_inj (a1 i) (a2 i)
  subst e2
  have e3 : sm = sm' := by
    have a1 := h.spectral
    have a2 := h'.spectral
    rw [hs] at a2
    cases hk : c.spectral <;> simp only [hk] at a1 a2
    · obtain ⟨p, p1, p2⟩ := a1
      obtain ⟨q, q1, q2⟩ := a2
      rw [hw.2 _ (by simp), p1] at q1
      obtain rfl := Option.some.inj q1
      exact funext fun i => ok_inj (p2 i) (q2 i)
    · exact funext fun i => ok_inj (a1 i) (a2 i)
    · exact funext fun i => (a1 i).trans (a2 i).symm
  subst e3
  obtain ⟨x, y, z, x1, y1, z1, q⟩ := h.effective
  obtain ⟨x', y', z', x1', y1', z1', q'⟩ := h'.effective
  rw [hd, x1] at x1'; rw [hf, y1] at y1'
  obtain rfl := Option.some.inj x1'; obtain rfl := Option.some.inj y1'; obtain rfl := ok_inj z1 z1'
  exact ⟨rfl, rfl, rfl, funext fun i => (q i).trans (q' i).symm⟩

theorem cell_fun {c c' : Chain} {s : Site} {times : List ℝ} {a : PvArr} {w w' : DF} {poa e t t' : Ser}
    (hc : SameModels c c') (hw : SameWeather w w')
    (h : CellSpec c s times a w poa e t) (h' : CellSpec c' s times a w' poa e t') : t = t' := by
  have hm : c'.temp = c.temp := by rw [hc.1]
  unfold CellSpec at h h'
  rw [hm, hw.2 "cell_temperature" (by simp), hw.2 "module_temperature" (by simp)] at h'
  cases h1 : w.cols.get? "cell_temperature" with
  | some t0 => simp only [h1] at h h'; exact h.trans h'.symm
  | none =>
    simp only [h1] at h h'
    cases h2 : (if c.temp = .sapm then w.cols.get? "module_temperature" else none) with
    | some m =>
      simp only [h2] at h h'
      obtain ⟨x, x1, x2⟩ := h
      obtain ⟨y, y1, y2⟩ := h'
      obtain rfl := ok_inj x1 y1
      exact funext fun i => (x2 i).trans (y2 i).symm
    | none =>
      simp only [h2] at h h'
      have e1 : colOr w' "temp_air" 20 = colOr w "temp_air" 20 := by unfold colOr; rw [hw.2 _ (by simp)]
      have e2 : colOr w' "wind_speed" 0 = colOr w "wind_speed" 0 := by unfold colOr; rw [hw.2 _ (by simp)]
      rw [e1, e2] at h'
      exact ok_inj h h'

theorem dc_fun {c c' : Chain} {s : Site} {a : PvArr} {e t : Ser} {d d' : Dc} (hc : SameModels c c')
    (h : DcSpec c s a e t d) (h' : DcSpec c' s a e t d') : DcEq d d' := by
  have hm : c'.dc = c.dc := by rw [hc.1]
  unfold DcSpec at h h'
  rw [hm] at h'
  cases hk : c.dc with
  | none => simp only [hk] at h
  | some m =>
    have diode : ∀ (q q' : ℕ → Five) (o o' : ℕ → SevenPoints) (f g : PyDict Ser),
        (∀ i, diodeParams m a (e i) (t i) = .ok (q i)) → (∀ i, diodeParams m a (e i) (t i) = .ok (q' i)) →
        (∀ i, singlediode s.numerics (q i) = .ok (o i)) → (∀ i, singlediode s.numerics (q' i) = .ok (o' i)) →
        (∀ name, f.get? name = ((diodeFrame o).get? name).map fun v i => fillna0 (scaledBy a name (v i))) →
        (∀ name, g.get? name = ((diodeFrame o').get? name).map fun v i => fillna0 (scaledBy a name (v i))) →
        DcEq (.frame f) (.frame g) := by
      intro q q' o o' f g h1 h2 h3 h4 h5 h6 name
      have e1 : q = q' := funext fun i => ok_inj (h1 i) (h2 i)
      subst e1
      have e2 : o = o' := funext fun i => ok_inj (h3 i) (h4 i)
      subst e2
      rw [h5, h6]
    cases m with
    | pvwatts =>
      simp only [hk] at h h'
      obtain ⟨p, q, rfl, h1⟩ := h
      obtain ⟨p', q', rfl, h2⟩ := h'
      show p = p'
      funext i
      have := ok_inj (h1 i).1 (h2 i).1
      rw [(h1 i).2, (h2 i).2, this]
    | sapm =>
      simp only [hk] at h h'
      obtain ⟨f, o, rfl, h1, h2⟩ := h
      obtain ⟨f', o', rfl, g1, g2⟩ := h'
      have : o = o' := funext fun i => ok_inj (h1 i) (g1 i)
      subst this
      intro name
      rw [h2, g2]
    | desoto =>
      simp only [hk] at h h'
      obtain ⟨f, q, o, rfl, h1, h2, h3⟩ := h
      obtain ⟨f', q', o', rfl, g1, g2, g3⟩ := h'
      exact diode q q' o o' f f' h1 g1 h2 g2 h3 g3
    | cec =>
      simp only [hk] at h h'
      obtain ⟨f, q, o, rfl, h1, h2, h3⟩ := h
      obtain ⟨f', q', o', rfl, g1, g2, g3⟩ := h'
      exact diode q q' o o' f f' h1 g1 h2 g2 h3 g3
    | pvsyst =>
      simp only [hk] at h h'
      obtain ⟨f, q, o, rfl, h1, h2, h3⟩ := h
      obtain ⟨f', q', o', rfl, g1, g2, g3⟩ := h'
      exact diode q q' o o' f f' h1 g1 h2 g2 h3 g3

theorem ohmic_fun {c c' : Chain} {a : PvArr} {d d' e e' : Dc} (hc : SameModels c c') (hd : DcEq d d')
    (h : OhmicSpec c a d e) (h' : OhmicSpec c' a d' e') : DcEq e e' := by
  have hm : c'.ohmic = c.ohmic := by rw [hc.1]
  unfold OhmicSpec at h h'
  rw [hm] at h'
  cases hk : c.ohmic with
  | no_loss => simp only [hk] at h h'; subst h h'; exact hd
  | dc_ohms_from_percent =>
    simp only [hk] at h h'
    obtain ⟨f, g, i, p, o, rfl, rfl, h1, h2, h3, h4, h5⟩ := h
    obtain ⟨f', g', i', p', o', rfl, rfl, g1, g2, g3, g4, g5⟩ := h'
    have hd : ∀ name, f.get? name = f'.get? name := hd
    rw [← hd, h2] at g2; rw [← hd, h3] at g3
    obtain rfl := ok_inj h1 g1; obtain rfl := Option.some.inj g2; obtain rfl := Option.some.inj g3
    intro name
    by_cases hn : name = "p_mp"
    · subst hn; rw [h4, g4]
    · rw [h5 _ hn, g5 _ hn, hd]

theorem loss_fun {c c' : Chain} {d d' e e' : Dc} {f f' : Fl} (hc : SameModels c c') (hd : DcEq d d')
    (h : LossSpec c d e f) (h' : LossSpec c' d' e' f') : DcEq e e' ∧ f = f' := by
  have hm : c'.losses = c.losses := by rw [hc.1]
  have hp : c'.system.pvwattsLosses = c.system.pvwattsLosses := by unfold System.pvwattsLosses; rw [hc.2]
  unfold LossSpec at h h'
  rw [hm, hp] at h'
  cases hk : c.losses with
  | no_loss => simp only [hk] at h h'; obtain ⟨rfl, rfl⟩ := h; obtain ⟨rfl, rfl⟩ := h'; exact ⟨hd, rfl⟩
  | pvwatts =>
    simp only [hk] at h h'
    obtain ⟨l, h1, rfl, h3⟩ := h
    obtain ⟨l', g1, rfl, g3⟩ := h'
    obtain rfl := ok_inj h1 g1
    refine ⟨?_, rfl⟩
    cases d <;> cases d' <;> cases e <;> cases e' <;> simp only [DcEq] at hd h3 g3 ⊢
    · subst hd; exact funext fun i => (h3 i).trans (g3 i).symm
    · intro name; rw [h3, g3, hd]

theorem power_fun {c c' : Chain} {s : Site} {a : PvArr} {e t : Ser} {f f' : Fl} {d d' : Dc} (hc : SameModels c c')
    (h : PowerSpec c s a e t f d) (h' : PowerSpec c' s a e t f' d') : DcEq d d' := by
  obtain ⟨d0, d1, h1, h2, h3⟩ := h
  obtain ⟨d0', d1', g1, g2, g3⟩ := h'
  exact (loss_fun hc (ohmic_fun hc (dc_fun hc h1 g1) h2 g2) h3 g3).1

theorem col_eq {d d' : Dc} (h : DcEq d d') (name : String) : d.col name = d'.col name := by
  cases d <;> cases d' <;> simp only [DcEq] at h
  · rfl
  · simp only [Dc.col, argOf, h]

theorem pow_eq {d d' : Dc} (h : DcEq d d') : d.power = d'.power := by
  cases d <;> cases d' <;> simp only [DcEq] at h
  · subst h; rfl
  · rfl

theorem map_inj_ok {xs ys : List Ser} (h : xs.map (Except.ok (ε := PyErr)) = ys.map .ok) : xs = ys :=
  (List.map_injective_iff.mpr fun _ _ h => Except.ok.inj h) h

theorem ac_fun {c : Chain} {ds ds' : List Dc} {ac ac' : Ser} (hl : ds.length = ds'.length)
    (he : ∀ (k : ℕ) d d', ds[k]? = some d → ds'[k]? = some d' → DcEq d d') (h : AcSpec c ds ac) (h' : AcSpec c ds' ac') : ac = ac' := by
  have hmap : ∀ {β : Type} (g : Dc → β), (∀ d d', DcEq d d' → g d = g d') → ds.map g = ds'.map g := by
    intro β g hg
    apply List.ext_getElem?
    intro k
    by_cases hk : k < ds.length
    · have hk' : k < ds'.length := hl ▸ hk
      simp only [List.getElem?_map, List.getElem?_eq_getElem hk, List.getElem?_eq_getElem hk', Option.map_some]
      rw [hg _ _ (he k _ _ (List.getElem?_eq_getElem hk) (List.getElem?_eq_getElem hk'))]
    · rw [List.getElem?_eq_none (by simpa using hk), List.getElem?_eq_none (by simp; omega)]
  have hp := hmap (fun d => d.col "p_mp") fun d d' h => col_eq h _
  have hv := hmap (fun d => d.col "v_mp") fun d d' h => col_eq h _
  have hw := hmap Dc.power fun d d' h => pow_eq h
  unfold AcSpec at h h'
  rw [← hp, ← hv, ← hw] at h'
  cases hk : c.ac <;> simp only [hk] at h h'
  · obtain ⟨ps, vs, h1, h2, h3⟩ := h
    obtain ⟨ps', vs', g1, g2, g3⟩ := h'
    obtain rfl := map_inj_ok (h1.symm.trans g1)
    obtain rfl := map_inj_ok (h2.symm.trans g2)
    exact funext fun i => ok_inj (h3 i) (g3 i)
  · obtain ⟨p, v, h1, h2, h3⟩ := h
    obtain ⟨p', v', g1, g2, g3⟩ := h'
    have e1 := h1.symm.trans g1
    have e2 := h2.symm.trans g2
    simp only [List.cons.injEq, Except.ok.injEq, and_true] at e1 e2
    subst e1 e2
    exact funext fun i => ok_inj (h3 i) (g3 i)
  · obtain ⟨ps, q, h1, h2⟩ := h
    obtain ⟨ps', q', g1, g2⟩ := h'
    obtain rfl := map_inj_ok (h1.symm.trans g1)
    funext i
    have := ok_inj (h2 i).1 (g2 i).1
    rw [(h2 i).2, (g2 i).2, this]

theorem acfrom_fun {c : Chain} {r r' : Results} (h : AcFrom c r) (h' : AcFrom c r')
    (hd : ∀ k, k < c.system.arrays.length → ∃ d d', part k r.dc = some d ∧ part k r'.dc = some d' ∧ DcEq d d') : r.ac = r'.ac := by
  obtain ⟨ac, ds, h1, h2, h3, h4⟩ := h
  obtain ⟨ac', ds', g1, g2, g3, g4⟩ := h'
  rw [h1, g1]
  refine congrArg some (ac_fun (h2.trans g2.symm) ?_ h4 g4)
  intro k d d' hk hk'
  have hlt : k < c.system.arrays.length := by
    by_contra hn
    rw [List.getElem?_eq_none (by omega)] at hk
    simp at hk
  obtain ⟨x, x', e1, e2, e3⟩ := hd k hlt
  rw [h3 k hlt, hk] at e1
  rw [g3 k hlt, hk'] at e2
  obtain rfl := Option.some.inj e1; obtain rfl := Option.some.inj e2
  exact e3

theorem frame0 {x : Input} {d : DF} (h : frameFor x 0 = some d) : d ∈ frames x := by
  cases x with
  | frame e => simp [frameFor] at h; simp [frames, h]
  | tuple ds => exact List.mem_of_getElem? h
  | list ds => exact List.mem_of_getElem? h

theorem sky_fun {c c' : Chain} {s : Site} {x x' : Input} {r r' : Results} {sp sp' : SolPos} {am am' : AirMass}
    {times times' : List ℝ} (hc : SameModels c c') (hw : ∀ w w', frameFor x 0 = some w → frameFor x' 0 = some w' → SameWeather w w')
    (h : SkySpec c s x r sp am times) (h' : SkySpec c' s x' r' sp' am' times') : sp = sp' ∧ am = am' ∧ times = times' := by
  obtain ⟨d, d1, d2⟩ := h.position
  obtain ⟨d', d1', d2'⟩ := h'.position
  have hs := hw d d' d1 d1'
  have et : times = times' := by
    rw [← h.index d (frame0 d1), ← h'.index d' (frame0 d1'), hs.1]
  subst et
  have hm : c'.solar_position_method = c.solar_position_method := by rw [hc.1]
  have ha : c'.airmass_model = c.airmass_model := by rw [hc.1]
  rw [hs.2 _ (by simp), hs.2 "temp_air" (by simp), hm] at d2'
  obtain rfl := ok_inj d2 d2'
  have e := h.airmass
  have e' := h'.airmass
  rw [ha] at e'
  have : ∀ i, am.relative i = am'.relative i ∧ am.absolute i = am'.absolute i := fun i => by
    have := ok_inj (e i) (e' i)
    simpa using this
  refine ⟨rfl, ?_, rfl⟩
  cases am; cases am'
  simp only at this
  congr
  · exact funext fun i => (this i).1
  · exact funext fun i => (this i).2

theorem sw_refl (w : DF) : SameWeather w w := ⟨rfl, fun _ _ => rfl⟩

/-- **C97**: the results of an array depend only on the models of the chain, the sky (the frame of the first array: its index, air
temperature and pressure), the array and its own frame: not on the other arrays, their frames, the number or the order of arrays,
the inverter, the kind of container the frames came in, nor on anything run before.  (Albedo columns count only if all frames
have one, so that is also required to agree.) -/
theorem array_independent {c c' : Chain} {s : Site} {x x' : Input} {r r' q q' : Results} (hc : SameModels c c')
    (h : runModel c s x r = .ok q) (h' : runModel c' s x' r' = .ok q')
    (hsky : ∀ w w', frameFor x 0 = some w → frameFor x' 0 = some w' → SameWeather w w') (hal : AllAlbedo x ↔ AllAlbedo x')
    {k k' : ℕ} {a : PvArr} (ha : c.system.arrays[k]? = some a) (ha' : c'.system.arrays[k']? = some a)
    (hf : frameFor x k = frameFor x' k') :
    SameArray q q' k k' ∧ part k q.total_irrad = part k' q'.total_irrad := by
  obtain ⟨sp, am, times, f, s1, -, p⟩ := run_model_array h
  obtain ⟨sp', am', times', f', s1', -, p'⟩ := run_model_array h'
  obtain ⟨rfl, rfl, rfl⟩ := sky_fun hc hsky s1 s1'
  obtain ⟨w, ti, aoi, iam, sm, e, t, d, h1, h2, h3, h4, h5, h6⟩ := p k a ha
  obtain ⟨w', ti', aoi', iam', sm', e', t', d', g1, g2, g3, g4, g5, g6⟩ := p' k' a ha'
  rw [← hf, h1] at g1
  obtain rfl := Option.some.inj g1
  obtain rfl := poa_fun hc hal h3 g3
  obtain ⟨rfl, rfl, rfl, rfl⟩ := optics_fun hc (sw_refl w) rfl rfl h4 g4
  obtain rfl := cell_fun hc (sw_refl w) h5 g5
  exact ⟨⟨⟨h2.effective_irradiance.trans g2.effective_irradiance.symm, h2.cell_temperature.trans g2.cell_temperature.symm,
    d, d', h2.dc, g2.dc, power_fun hc h6 g6⟩, h2.aoi.trans g2.aoi.symm, h2.aoi_modifier.trans g2.aoi_modifier.symm,
    h2.spectral_modifier.trans g2.spectral_modifier.symm⟩, h2.total_irrad.trans g2.total_irrad.symm⟩

theorem models_refl (c : Chain) : SameModels c c := ⟨rfl, rfl⟩

theorem frames_of {x : Input} {d : DF} (h : d ∈ frames x) : ∃ k, frameFor x k = some d := by
  cases x with
  | frame e => simp only [frames, List.mem_singleton] at h; exact ⟨0, by rw [h]; rfl⟩
  | tuple ds => exact List.mem_iff_getElem?.mp h
  | list ds => exact List.mem_iff_getElem?.mp h

/-- **C97**: a bare frame, a tuple and a list give the same values, as long as each array gets the same frame: in particular a
bare frame is the same as one copy per array. -/
theorem container_irrelevant {c : Chain} {s : Site} {x x' : Input} {r r' q q' : Results}
    (h : runModel c s x r = .ok q) (h' : runModel c s x' r' = .ok q')
    (hf : ∀ k, k < c.system.arrays.length → frameFor x k = frameFor x' k) :
    (∀ k, k < c.system.arrays.length → SameArray q q' k k ∧ part k q.total_irrad = part k q'.total_irrad) ∧ q.ac = q'.ac := by
  have hpos : ∀ {y : Input} {u v : Results}, runModel c s y u = .ok v → 0 < c.system.arrays.length ∨ c.system.arrays = [] := by
    intro y u v _
    cases c.system.arrays <;> simp
  have hal : c.system.arrays ≠ [] → (AllAlbedo x ↔ AllAlbedo x') := by
    intro hne
    have hl : 0 < c.system.arrays.length := List.length_pos_iff.mpr hne
    have key : ∀ {y z : Input} {u v : Results}, runModel c s z u = .ok v →
        (∀ k, k < c.system.arrays.length → frameFor z k = frameFor y k) → AllAlbedo y → AllAlbedo z := by
      intro y z u v hz hyz hy d hd
      obtain ⟨k, hk⟩ := frames_of hd
      have acc := (run_model_accepts c s z u v hz).1
      have hk' : ∃ j, j < c.system.arrays.length ∧ frameFor z j = some d := by
        cases z with
        | frame e => exact ⟨0, hl, hk⟩
        | tuple ds =>
          refine ⟨k, ?_, hk⟩
          have hlen : ds.length = c.system.arrays.length := by
            simpa [Matches, Bare, frames] using (by simpa [Bare] using acc : Matches c.system (.tuple ds)).1
          exact hlen ▸ (List.getElem?_eq_some_iff.mp hk).1
        | list ds =>
          refine ⟨k, ?_, hk⟩
          have hlen : ds.length = c.system.arrays.length := by
            simpa [Matches, Bare, frames] using (by simpa [Bare] using acc : Matches c.system (.list ds)).1
          exact hlen ▸ (List.getElem?_eq_some_iff.mp hk).1
      obtain ⟨j, j1, j2⟩ := hk'
      rw [hyz j j1] at j2
      refine hy d ?_
      cases y with
      | frame e => simp [frameFor] at j2; simp [frames, j2]
      | tuple ds => exact List.mem_of_getElem? j2
      | list ds => exact List.mem_of_getElem? j2
    exact ⟨key h' (fun k hk => (hf k hk).symm), key h hf⟩
  have main : ∀ k, k < c.system.arrays.length → SameArray q q' k k ∧ part k q.total_irrad = part k q'.total_irrad := by
    intro k hk
    have hne : c.system.arrays ≠ [] := by intro h0; simp [h0] at hk
    refine array_independent (models_refl c) h h' ?_ (hal hne) (List.getElem?_eq_getElem hk) (List.getElem?_eq_getElem hk) (hf k hk)
    intro w w' e e'
    rw [hf 0 (by omega), e'] at e
    obtain rfl := Option.some.inj e
    exact sw_refl _
  exact ⟨main, acfrom_fun (run_ac (Or.inl h)) (run_ac (Or.inl h')) fun k hk => (main k hk).1.dc⟩

/-- The frames of a second run hold, for every array, the same weather as those of the first. -/
def SameSky (c : Chain) (x x' : Input) : Prop :=
  ∀ k, k < c.system.arrays.length → ∀ w w', frameFor x k = some w → frameFor x' k = some w' → SameWeather w w'

/-- **C98**: if the plane-of-array irradiance computed by `run_model` is handed, with the same weather, to
`run_model_from_poa`, then all later results are the same. -/
theorem poa_entry_agrees {c : Chain} {s : Site} {x x' : Input} {r r' q q' : Results} (hn : c.system.arrays ≠ [])
    (h : runModel c s x r = .ok q) (h' : runModelFromPoa c s x' r' = .ok q') (hw : SameSky c x x')
    (hp : ∀ k, k < c.system.arrays.length → ∀ w' ti, frameFor x' k = some w' → part k q.total_irrad = some ti →
      ∀ name ∈ ["poa_global", "poa_direct", "poa_diffuse"], w'.cols.get? name = ti.cols.get? name) :
    (∀ k, k < c.system.arrays.length → SameArray q q' k k) ∧ q.ac = q'.ac := by
  have hl : 0 < c.system.arrays.length := List.length_pos_iff.mpr hn
  obtain ⟨sp, am, times, f, s1, -, p⟩ := run_model_array h
  obtain ⟨sp', am', times', f', s1', -, p'⟩ := run_poa_array h'
  obtain ⟨rfl, rfl, rfl⟩ := sky_fun (models_refl c) (hw 0 hl) s1 s1'
  have main : ∀ k, k < c.system.arrays.length → SameArray q q' k k := by
    intro k hk
    obtain ⟨w, ti, aoi, iam, sm, e, t, d, h1, h2, h3, h4, h5, h6⟩ := p k _ (List.getElem?_eq_getElem hk)
    obtain ⟨w', ti', aoi', iam', sm', e', t', d', g1, g2, g3, g4, g5, g6⟩ := p' k _ (List.getElem?_eq_getElem hk)
    have hws := hw k hk w w' h1 g1
    have hpk := hp k hk w' ti g1 h2.total_irrad
    obtain ⟨rfl, rfl, rfl, rfl⟩ := optics_fun (models_refl c) hws ((g3 "poa_direct" (by simp)).trans (hpk "poa_direct" (by simp)))
      ((g3 "poa_diffuse" (by simp)).trans (hpk "poa_diffuse" (by simp))) h4 g4
    have eg : colOr w' "poa_global" nan = colOr ti "poa_global" nan := by unfold colOr; rw [hpk _ (by simp)]
    rw [eg] at g5
    obtain rfl := cell_fun (models_refl c) hws h5 g5
    exact ⟨⟨h2.effective_irradiance.trans g2.effective_irradiance.symm, h2.cell_temperature.trans g2.cell_temperature.symm,
      d, d', h2.dc, g2.dc, power_fun (models_refl c) h6 g6⟩, h2.aoi.trans g2.aoi.symm, h2.aoi_modifier.trans g2.aoi_modifier.symm,
      h2.spectral_modifier.trans g2.spectral_modifier.symm⟩
  exact ⟨main, acfrom_fun (run_ac (Or.inl h)) (run_ac (Or.inr (Or.inl h'))) fun k hk => (main k hk).dc⟩

/-- **C98**: if the effective and the global plane-of-array irradiance of `run_model_from_poa` (or `run_model`) are handed, with the
same weather, to `run_model_from_effective_irradiance`, then all later results are the same. -/
theorem eff_entry_agrees {c : Chain} {s : Site} {x x' : Input} {r r' q q' : Results} (hn : c.system.arrays ≠ [])
    (h : runModel c s x r = .ok q ∨ runModelFromPoa c s x r = .ok q) (h' : runModelFromEff c s x' r' = .ok q') (hw : SameSky c x x')
    (hp : HasCols x' ["poa_global"])
    (hg : ∀ k, k < c.system.arrays.length → ∀ w' ti, frameFor x' k = some w' → part k q.total_irrad = some ti →
      w'.cols.get? "poa_global" = ti.cols.get? "poa_global")
    (he : ∀ k, k < c.system.arrays.length → ∀ w', frameFor x' k = some w' →
      w'.cols.get? "effective_irradiance" = part k q.effective_irradiance) :
    (∀ k, k < c.system.arrays.length → SamePower q q' k k) ∧ q.ac = q'.ac := by
  have hl : 0 < c.system.arrays.length := List.length_pos_iff.mpr hn
  obtain ⟨times', f', t1', -, p'⟩ := run_eff_array h'
  have first : ∃ times f, (∀ d ∈ frames x, d.index = times) ∧ ∀ k a, c.system.arrays[k]? = some a → ∃ w ti e t d,
      frameFor x k = some w ∧ part k q.total_irrad = some ti ∧ part k q.effective_irradiance = some e ∧
      part k q.cell_temperature = some t ∧ part k q.dc = some d ∧ CellSpec c s times a w (colOr ti "poa_global" nan) e t ∧
      PowerSpec c s a e t f d := by
    rcases h with h | h
    · obtain ⟨sp, am, times, f, s1, -, p⟩ := run_model_array h
      refine ⟨times, f, s1.index, fun k a ha => ?_⟩
      obtain ⟨w, ti, aoi, iam, sm, e, t, d, h1, h2, h3, h4, h5, h6⟩ := p k a ha
      exact ⟨w, ti, e, t, d, h1, h2.total_irrad, h2.effective_irradiance, h2.cell_temperature, h2.dc, h5, h6⟩
    · obtain ⟨sp, am, times, f, s1, -, p⟩ := run_poa_array h
      refine ⟨times, f, s1.index, fun k a ha => ?_⟩
      obtain ⟨w, ti, aoi, iam, sm, e, t, d, h1, h2, h3, h4, h5, h6⟩ := p k a ha
      have eg : colOr w "poa_global" nan = colOr ti "poa_global" nan := by unfold colOr; rw [h3 _ (by simp)]
      rw [eg] at h5
      exact ⟨w, ti, e, t, d, h1, h2.total_irrad, h2.effective_irradiance, h2.cell_temperature, h2.dc, h5, h6⟩
  obtain ⟨times, f, t1, p⟩ := first
  have et : times = times' := by
    obtain ⟨w, _, _, _, _, h1, _⟩ := p 0 _ (List.getElem?_eq_getElem hl)
    obtain ⟨w', _, _, _, g1, _⟩ := p' 0 _ (List.getElem?_eq_getElem hl)
    rw [← t1 w (frame0 h1), ← t1' w' (frame0 g1), (hw 0 hl w w' h1 g1).1]
  subst et
  have main : ∀ k, k < c.system.arrays.length → SamePower q q' k k := by
    intro k hk
    obtain ⟨w, ti, e, t, d, h1, h2, h3, h4, h5, h6, h7⟩ := p k _ (List.getElem?_eq_getElem hk)
    obtain ⟨w', e', t', d', g1, g2, g3, g4, g5, g6, g7⟩ := p' k _ (List.getElem?_eq_getElem hk)
    have hws := hw k hk w w' h1 g1
    have ee := he k hk w' g1
    rw [g2, h3] at ee
    obtain rfl := Option.some.inj ee
    simp only [hp, if_true] at g6
    have eg : colOr w' "poa_global" nan = colOr ti "poa_global" nan := by unfold colOr; rw [hg k hk w' ti g1 h2]
    rw [eg] at g6
    obtain rfl := cell_fun (models_refl c) hws h6 g6
    exact ⟨h3.trans g3.symm, h4.trans g4.symm, d, d', h5, g5, power_fun (models_refl c) h7 g7⟩
  refine ⟨main, acfrom_fun ?_ (run_ac (Or.inr (Or.inr h'))) fun k hk => (main k hk).dc⟩
  rcases h with h | h
  · exact run_ac (Or.inl h)
  · exact run_ac (Or.inr (Or.inl h))

/-! ### C99: the power of a chain -/

theorem maps_length {α β : Type} {ds : List α} {xs : List β} {f : α → Except PyErr β} (h : ds.map f = xs.map .ok) :
    xs.length = ds.length := by
  have := congrArg List.length h
  simpa using this.symm

/-- **C99**: with a PVWatts inverter the AC power of every run is a number between 0 and the rated AC power `eta_inv_nom * pdc0`,
at every time, for every number of arrays and whatever the weather: it is never NaN or infinite. -/
theorem pvwatts_ac_range {c : Chain} {s : Site} {x : Input} {r q : Results} (hn : c.system.arrays ≠ [])
    (h : runModel c s x r = .ok q ∨ runModelFromPoa c s x r = .ok q ∨ runModelFromEff c s x r = .ok q) (hac : c.ac = .pvwatts)
    {pdc0 en er : ℝ} (hp : entry c.system.inverter_parameters "pdc0" = some (fin pdc0))
    (h1 : Numeric c.system.inverter_parameters "eta_inv_nom") (h2 : Numeric c.system.inverter_parameters "eta_inv_ref")
    (h3 : (entry c.system.inverter_parameters "eta_inv_nom").getD 0.96 = fin en)
    (h4 : (entry c.system.inverter_parameters "eta_inv_ref").getD 0.9637 = fin er) (p0 : 0 < pdc0) (e0 : 0 < en) (e1 : 0 < er) :
    ∃ ac, q.ac = some ac ∧ ∀ i, ∃ v, ac i = fin v ∧ 0 ≤ v ∧ v ≤ en * pdc0 := by
  obtain ⟨ac, ds, a1, a2, -, a4⟩ := run_ac h
  refine ⟨ac, a1, fun i => ?_⟩
  unfold AcSpec at a4
  simp only [hac] at a4
  obtain ⟨ps, z, b1, b2⟩ := a4
  obtain ⟨z1, z2⟩ := b2 i
  rw [ac_pvwatts c.system (m := "pvwatts") (by decide +kernel) hn (p := .tuple (ps.map fun p => p i)) (ps := ps.map fun p => p i) ⟨by simp [maps_length b1, a2], rfl⟩ hp h1 h2, h3, h4] at z1
  generalize (if c.system.arrays.length = 1 then (List.map (fun p => p i) ps).headD 0 else Fl.sum (List.map (fun p => p i) ps)) = P at z1
  obtain ⟨-, hr⟩ := Inverter.pvwatts_range P pdc0 en er p0 e1 e0
  rw [Except.ok.inj z1] at hr
  rw [z2]
  cases hz : z i with
  | nan => exact ⟨0, by simp [fillna0], le_rfl, by positivity⟩
  | ninf => rw [hz] at hr; simp [NanOr] at hr
  | pinf => rw [hz] at hr; simp [NanOr] at hr
  | fin v =>
    rw [hz] at hr
    have hr : 0 ≤ v ∧ v ≤ en * pdc0 := by simpa [NanOr] using hr
    exact ⟨v, by simp [fillna0], hr⟩

theorem limits_le (ac p : Fl) {paco pnt : ℝ} (pso : Fl) (h0 : 0 ≤ paco) :
    Inverter.sandiaLimits ac p (fin paco) (fin pnt) pso = nan ∨ Inverter.sandiaLimits ac p (fin paco) (fin pnt) pso ≤ fin paco := by
  unfold Inverter.sandiaLimits
  dsimp only
  split_ifs with h
  · right; simp; exact le_trans (neg_nonpos.mpr (abs_nonneg _)) h0
  · by_cases hn : minimum (fin paco) ac = nan
    · exact Or.inl hn
    · exact Or.inr (minimum_le_left hn)

/-- **C99**: with a Sandia inverter the AC power of every run never exceeds `Paco` (unless it is NaN), and is exactly the night
tare at every time when the DC power of the arrays together is below the start-up power. -/
theorem sandia_ac_range {c : Chain} {s : Site} {x : Input} {r q : Results}
    (h : runModel c s x r = .ok q ∨ runModelFromPoa c s x r = .ok q ∨ runModelFromEff c s x r = .ok q) (hac : c.ac = .sandia)
    (hn : c.system.arrays ≠ []) {z : Inverter.SandiaParams} (hz : SandiaDict c.system.inverter_parameters z) {paco pnt : ℝ}
    (hp : z.Paco = fin paco) (ht : z.Pnt = fin pnt) (h0 : 0 ≤ paco) :
    ∃ (ac : Ser) (ps : List Ser), q.ac = some ac ∧ ps.length = c.system.arrays.length ∧
      (∀ k d p, part k q.dc = some d → ps[k]? = some p → d.col "p_mp" = .ok p) ∧
      ∀ i, (ac i = nan ∨ ac i ≤ fin paco) ∧
        ((if c.system.arrays.length = 1 then (ps.map fun p => p i).headD 0 else Fl.sum (ps.map fun p => p i)) < z.Pso →
          ac i = fin (-|pnt|)) := by
  obtain ⟨ac, ds, a1, a2, a3, a4⟩ := run_ac h
  unfold AcSpec at a4
  simp only [hac] at a4
  obtain ⟨ps, vs, b1, b2, b3⟩ := a4
  have lp := maps_length b1
  have lv := maps_length b2
  refine ⟨ac, ps, a1, lp.trans a2, fun k d p hd hpk => ?_, fun i => ?_⟩
  · have hk : k < c.system.arrays.length := by
      rw [← a2, ← lp]; exact (List.getElem?_eq_some_iff.mp hpk).1
    rw [a3 k hk] at hd
    have := congrArg (fun l => l[k]?) b1
    simp only [List.getElem?_map, hd, hpk, Option.map_some] at this
    exact Option.some.inj this
  · have e := b3 i
    by_cases h1 : c.system.arrays.length = 1
    · obtain ⟨p, rfl⟩ := List.length_eq_one_iff.mp (lp.trans (a2.trans h1))
      obtain ⟨v, rfl⟩ := List.length_eq_one_iff.mp (lv.trans (a2.trans h1))
      rw [ac_sandia_one c.system (m := "sandia") (by decide +kernel) h1 hz (p := .tuple ([p].map fun p => p i)) (v := .tuple ([v].map fun p => p i)) (x := p i) (y := v i) ⟨rfl, rfl⟩ ⟨rfl, rfl⟩] at e
      rw [← Except.ok.inj e]
      simp only [h1, if_true, List.map_cons, List.map_nil, List.headD_cons]
      exact ⟨hp ▸ Inverter.sandia_le_Paco (v i) (p i) z paco hp h0, fun hlt => Inverter.sandia_night (v i) (p i) z pnt ht hlt⟩
    · have h2 : 1 < c.system.arrays.length := by
        have := List.length_pos_iff.mpr hn; omega
      rw [ac_sandia_many c.system (by decide +kernel) h2 hz (by simp [lp, a2]) (by simp [lv, a2])] at e
      unfold Inverter.sandiaMulti at e
      rw [if_neg (by simp [lp, lv])] at e
      rw [← Except.ok.inj e, hp, ht]
      simp only [h1, if_false]
      exact ⟨limits_le _ _ _ h0, fun hlt => by simp [Inverter.sandiaLimits, hlt]⟩

/-- **C99**: in a PVWatts chain with system losses, the DC power of array `k` is the PVWatts formula for its own parameters, times
the modules of the array, times the factor left by the losses. -/
theorem pvwatts_dc_value {c : Chain} {s : Site} {x : Input} {r q : Results} (h : runModelFromEff c s x r = .ok q)
    (hdc : c.dc = some .pvwatts) (ho : c.ohmic = .no_loss) {k : ℕ} {a : PvArr} (ha : c.system.arrays[k]? = some a)
    {p0 g : ℝ} {ms st : ℝ} (hp : entry a.module_parameters "pdc0" = some (fin p0)) (hg : entry a.module_parameters "gamma_pdc" = some (fin g))
    (hk : ∀ k ∈ ["temp_ref", "k", "cap_adjustment"], a.module_parameters.get? k = none)
    (hms : a.modules_per_string = fin ms) (hst : a.strings = fin st) :
    ∃ w e t p f, frameFor x k = some w ∧ w.cols.get? "effective_irradiance" = some e ∧ part k q.cell_temperature = some t ∧
      part k q.dc = some (.series p) ∧ q.losses = some f ∧
      ∀ i G T F, e i = fin G → t i = fin T → f = fin F →
        p i = fin (G / 1000 * p0 * (1 + g * (T - 25)) * ms * st * F) := by
  obtain ⟨times, f, t1, hf, pp⟩ := run_eff_array h
  obtain ⟨w, e, t, d, h1, h2, h3, h4, h5, h6, d0, d1, h7, h8, h9⟩ := pp k a ha
  unfold DcSpec at h7
  unfold OhmicSpec at h8
  unfold LossSpec at h9
  simp only [hdc, ho] at h7 h8
  obtain ⟨p, z, rfl, hpz⟩ := h7
  subst h8
  have val : ∀ i G T, e i = fin G → t i = fin T → p i = fin (G / 1000 * p0 * (1 + g * (T - 25)) * ms * st) := by
    intro i G T hG hT
    obtain ⟨v1, v2⟩ := hpz i
    rw [pvwattsDc_value (a := a) hp hg (fun k hk' v hv => by rw [hk k hk'] at hv; simp at hv)] at v1
    have v3 := Except.ok.inj v1
    have n1 : entry a.module_parameters "temp_ref" = none := by simp [entry, hk "temp_ref" (by simp)]
    have n2 : entry a.module_parameters "k" = none := by simp [entry, hk "k" (by simp)]
    rw [v2, ← v3, n1, n2, hG, hT, scaledBy]
    simp only [pvwattsDc, hms, hst, Option.getD_none, ofNat_eq, one_eq, fin_mul, fin_add, fin_sub,
      List.mem_cons, List.not_mem_nil, or_false, String.reduceEq, if_false, or_self]
    congr 1
    ring
  cases hl : c.losses with
  | no_loss =>
    simp only [hl] at h9
    obtain ⟨rfl, rfl⟩ := h9
    refine ⟨w, e, t, p, 1, h1, h2, h4, h5, hf, fun i G T F hG hT hF => ?_⟩
    have : F = 1 := by rw [one_eq] at hF; exact (Fl.fin.inj hF).symm
    subst this
    rw [val i G T hG hT, mul_one]
  | pvwatts =>
    simp only [hl] at h9
    obtain ⟨l, l1, l2, l3⟩ := h9
    cases d with
    | frame _ => simp at l3
    | series p' =>
      simp only at l3
      refine ⟨w, e, t, p', f, h1, h2, h4, h5, hf, fun i G T F hG hT hF => ?_⟩
      rw [l3 i, val i G T hG hT, hF, fin_mul]

end Pvlib.Props.ChainFacts
end
