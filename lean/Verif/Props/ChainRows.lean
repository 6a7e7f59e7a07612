import Verif.Props.ChainFacts
import Verif.Props.ChainWitness

/-! # Property C203: the rows of a ModelChain run are independent -/

noncomputable section
open scoped Classical
namespace Pvlib.Props.ChainRows
open Fl Pvlib.Tools Pvlib.PvFunctions Pvlib.PvSystem Pvlib.ModelChain Pvlib.Props.PvSystem Pvlib.Props.ChainRun
  Pvlib.Props.ChainArrays Pvlib.Props.ArrayClass Pvlib.Props.ChainFacts

/-! ### Specification -/

/-- The value of an optional column in a row. -/
def val (v : Option Ser) (i : ℕ) : Option Fl := v.map fun v => v i

/-- Row `i` of one frame and row `i'` of another hold the same time and the same columns with the same values.  The other rows, their
number and their order do not matter. -/
def SameRow (w : DF) (i : ℕ) (w' : DF) (i' : ℕ) : Prop :=
  (∃ t, w.index[i]? = some t ∧ w'.index[i']? = some t) ∧ ∀ name, val (w.cols.get? name) i = val (w'.cols.get? name) i'

/-- The solar position and the extraterrestrial irradiance of a row depend on the time, pressure and temperature of this row only. -/
structure RowWise (s : Site) : Prop where
  position : ∀ times times' m p p' ta ta' sp sp' (i i' : ℕ) t, times[i]? = some t → times'[i']? = some t → val p i = val p' i' →
    val ta i = val ta' i' → s.solarPosition times m p ta = .ok sp → s.solarPosition times' m p' ta' = .ok sp' →
    sp.zenith i = sp'.zenith i' ∧ sp.apparent_zenith i = sp'.apparent_zenith i' ∧ sp.azimuth i = sp'.azimuth i'
  extra : ∀ times times' (i i' : ℕ) t, times[i]? = some t → times'[i']? = some t → s.extra times i = s.extra times' i'

/-- The same values in a row of two DC results. -/
def DcAt (d : Dc) (i : ℕ) (d' : Dc) (i' : ℕ) : Prop :=
  match d, d' with
  | .series p, .series q => p i = q i'
  | .frame f, .frame g => ∀ name, val (f.get? name) i = val (g.get? name) i'
  | _, _ => False

/-- Two runs agree in a row, in everything array `k` has from the effective irradiance on. -/
structure PowerAt (q : Results) (i : ℕ) (q' : Results) (i' : ℕ) (k : ℕ) : Prop where
  effective_irradiance : ∃ v v', part k q.effective_irradiance = some v ∧ part k q'.effective_irradiance = some v' ∧ v i = v' i'
  cell_temperature : ∃ v v', part k q.cell_temperature = some v ∧ part k q'.cell_temperature = some v' ∧ v i = v' i'
  dc : ∃ d d', part k q.dc = some d ∧ part k q'.dc = some d' ∧ DcAt d i d' i'

/-- Two runs agree in a row, in everything array `k` has. -/
structure ArrayAt (q : Results) (i : ℕ) (q' : Results) (i' : ℕ) (k : ℕ) : Prop extends PowerAt q i q' i' k where
  total_irrad : ∃ v v', part k q.total_irrad = some v ∧ part k q'.total_irrad = some v' ∧
    ∀ name, val (v.cols.get? name) i = val (v'.cols.get? name) i'
  aoi : ∃ v v', part k q.aoi = some v ∧ part k q'.aoi = some v' ∧ v i = v' i'
  aoi_modifier : ∃ v v', part k q.aoi_modifier = some v ∧ part k q'.aoi_modifier = some v' ∧ v i = v' i'
  spectral_modifier : ∃ v v', part k q.spectral_modifier = some v ∧ part k q'.spectral_modifier = some v' ∧ v i = v' i'

/-- Two runs agree in the AC power of a row. -/
def AcAt (q : Results) (i : ℕ) (q' : Results) (i' : ℕ) : Prop := ∃ ac ac', q.ac = some ac ∧ q'.ac = some ac' ∧ ac i = ac' i'

/-- The data of every array have the same row. -/
def SameRows (c : Chain) (x : Input) (i : ℕ) (x' : Input) (i' : ℕ) : Prop :=
  ∀ k, k < c.system.arrays.length → ∀ w w', frameFor x k = some w → frameFor x' k = some w' → SameRow w i w' i'

/-! ### Lemmas -/

theorem val_some {o : Option Ser} {v : Ser} (h : o = some v) (i : ℕ) : val o i = some (v i) := by rw [h]; rfl

theorem val_cons (n : String) (v : Ser) (d : PyDict Ser) (name : String) (i : ℕ) :
    val (PyDict.get? ((n, v) :: d) name) i = if n = name then some (v i) else val (d.get? name) i := by
  by_cases h : n = name
  · rw [if_pos h]; simp [val, PyDict.get?, h]
  · rw [if_neg h]; simp [val, PyDict.get?, h]

theorem col_row {w w' : DF} {i i' : ℕ} (h : SameRow w i w' i') {name : String} {v v' : Ser} (h1 : w.cols.get? name = some v)
    (h2 : w'.cols.get? name = some v') : v i = v' i' := by
  have := h.2 name
  rw [val_some h1, val_some h2] at this
  exact Option.some.inj this

theorem val_none {w w' : DF} {i i' : ℕ} (h : SameRow w i w' i') (name : String) :
    w.cols.get? name = none ↔ w'.cols.get? name = none := by
  have := h.2 name
  cases h1 : w.cols.get? name <;> cases h2 : w'.cols.get? name <;> simp [val, h1, h2] at this ⊢

theorem colOr_row {w w' : DF} {i i' : ℕ} (h : ∀ name, val (w.cols.get? name) i = val (w'.cols.get? name) i') (name : String) (d : Fl) :
    colOr w name d i = colOr w' name d i' := by
  have := h name
  unfold colOr
  cases h1 : w.cols.get? name <;> cases h2 : w'.cols.get? name <;> simp [val, h1, h2] at this ⊢
  exact this

theorem frame_lt {c : Chain} {z : Input} {d : DF} (hl : c.system.arrays ≠ []) (hx : Bare z ∨ Matches c.system z) (hd : d ∈ frames z) :
    ∃ k, k < c.system.arrays.length ∧ frameFor z k = some d := by
  have hl : 0 < c.system.arrays.length := List.length_pos_iff.mpr hl
  obtain ⟨k, hk⟩ := frames_of hd
  cases z with
  | frame e => exact ⟨0, hl, hk⟩
  | tuple ds =>
    refine ⟨k, ?_, hk⟩
    have hlen : ds.length = c.system.arrays.length := by
      simpa [Matches, Bare, frames] using (by simpa [Bare] using hx : Matches c.system (.tuple ds)).1
    exact hlen ▸ (List.getElem?_eq_some_iff.mp hk).1
  | list ds =>
    refine ⟨k, ?_, hk⟩
    have hlen : ds.length = c.system.arrays.length := by
      simpa [Matches, Bare, frames] using (by simpa [Bare] using hx : Matches c.system (.list ds)).1
    exact hlen ▸ (List.getElem?_eq_some_iff.mp hk).1

theorem hasCols_rows {c : Chain} {x x' : Input} {i i' : ℕ} {names : List String} (hl : c.system.arrays ≠ [])
    (hx : Bare x ∨ Matches c.system x) (hx' : Bare x' ∨ Matches c.system x') (h : SameRows c x i x' i') :
    HasCols x names ↔ HasCols x' names := by
  constructor
  · intro hh d hd n hn h0
    obtain ⟨k, k1, k2⟩ := frame_lt hl hx' hd
    obtain ⟨w, hw⟩ := frame_exists hx k1
    exact hh w (frame_mem hw) n hn ((val_none (h k k1 w d hw k2) n).mpr h0)
  · intro hh d hd n hn h0
    obtain ⟨k, k1, k2⟩ := frame_lt hl hx hd
    obtain ⟨w, hw⟩ := frame_exists hx' k1
    exact hh w (frame_mem hw) n hn ((val_none (h k k1 d w k2 hw) n).mp h0)

theorem poa_row {c : Chain} {s : Site} (hs : RowWise s) {sp sp' : SolPos} {am am' : AirMass} {times times' : List ℝ} {A A' : Prop} {a : PvArr}
    {w w' ti ti' : DF} {i i' : ℕ} {t : ℝ} (ht : times[i]? = some t) (ht' : times'[i']? = some t)
    (hz : sp.apparent_zenith i = sp'.apparent_zenith i') (hz2 : sp.azimuth i = sp'.azimuth i') (hm : am.relative i = am'.relative i')
    (hw : SameRow w i w' i') (hA : A ↔ A') (h : PoaSpec c s sp am times A a w ti) (h' : PoaSpec c s sp' am' times' A' a w' ti') :
    ∀ name, val (ti.cols.get? name) i = val (ti'.cols.get? name) i' := by
  obtain ⟨dni, ghi, dhi, h1, h2, h3, p, rfl, hp⟩ := h.columns
  obtain ⟨dni', ghi', dhi', g1, g2, g3, p', rfl, hp'⟩ := h'.columns
  have e : p i = p' i' := by
    have e1 := hp i
    have e2 := hp' i'
    rw [← hs.extra times times' i i' t ht ht', ← hz, ← hz2, ← hm, ← col_row hw h1 g1, ← col_row hw h2 g2, ← col_row hw h3 g3,
      ← colOr_row hw.2 "albedo" a.albedo] at e2
    have hA' : A = A' := propext hA
    subst hA'
    exact ok_inj e1 e2
  intro name
  simp only [poaFrame, val_cons, e]
  rfl

theorem optics_row {c : Chain} {s : Site} {sp sp' : SolPos} {am am' : AirMass} {a : PvArr} {w w' ti ti' : DF} {i i' : ℕ}
    {aoi iam sm e aoi' iam' sm' e' : Ser} (hw : SameRow w i w' i')
    (hz : sp.apparent_zenith i = sp'.apparent_zenith i') (hz2 : sp.azimuth i = sp'.azimuth i') (hm : am.absolute i = am'.absolute i')
    (hd : val (ti.cols.get? "poa_direct") i = val (ti'.cols.get? "poa_direct") i')
    (hf : val (ti.cols.get? "poa_diffuse") i = val (ti'.cols.get? "poa_diffuse") i')
    (h : OpticsSpec c s sp am a w ti aoi iam sm e) (h' : OpticsSpec c s sp' am' a w' ti' aoi' iam' sm' e') :
    aoi i = aoi' i' ∧ iam i = iam' i' ∧ sm i = sm' i' ∧ e i = e' i' := by
  have e1 : aoi i = aoi' i' := by rw [h.angle i, h'.angle i', hz, hz2]
  have e2 : iam i = iam' i' := by
    have a1 := h.modifier
    have a2 := h'.modifier
    by_cases hn : c.aoi = .no_loss
    · simp only [hn, if_true] at a1 a2
      exact (a1 i).trans (a2 i').symm
    · simp only [hn, if_false] at a1 a2
      have := a2 i'
      rw [← e1] at this
      exact ok_inj (a1 i) this
  have e3 : sm i = sm' i' := by
    have a1 := h.spectral
    have a2 := h'.spectral
    cases hk : c.spectral <;> simp only [hk] at a1 a2
    · obtain ⟨p, p1, p2⟩ := a1
      obtain ⟨q, q1, q2⟩ := a2
      have := q2 i'
      rw [← col_row hw p1 q1, ← hm] at this
      exact ok_inj (p2 i) this
    · have := a2 i'
      rw [← hm] at this
      exact ok_inj (a1 i) this
    · exact (a1 i).trans (a2 i').symm
  obtain ⟨x, y, z, x1, y1, z1, q⟩ := h.effective
  obtain ⟨x', y', z', x1', y1', z1', q'⟩ := h'.effective
  rw [val_some x1, val_some x1'] at hd
  rw [val_some y1, val_some y1'] at hf
  obtain rfl := ok_inj z1 z1'
  refine ⟨e1, e2, e3, ?_⟩
  rw [q i, q' i', e2, e3, Option.some.inj hd, Option.some.inj hf]

theorem getCell_row {sigma : Fl} {a : PvArr} {w w' : Weather} {m : String} {t t' : Ser} {i i' : ℕ} (hm : m ≠ "fuentes")
    (h1 : w.poa_global i = w'.poa_global i') (h2 : w.temp_air i = w'.temp_air i') (h3 : w.wind_speed i = w'.wind_speed i')
    (h4 : val w.effective_irradiance i = val w'.effective_irradiance i') (h5 : val w.longwave_down i = val w'.longwave_down i')
    (h : a.getCellTemperature sigma w m = .ok t) (h' : a.getCellTemperature sigma w' m = .ok t') : t i = t' i' := by
  unfold PvArr.getCellTemperature at h h'
  simp only [val] at h4 h5
  split_ifs at h h' with c1 c2 c3 c4 c5 c6
  · obtain ⟨l, l1, h⟩ := bind_ok h
    obtain ⟨l', l1', h'⟩ := bind_ok h'
    obtain rfl := ok_inj l1 l1'
    split at h
    · obtain ⟨k, k1, h⟩ := bind_ok h
      obtain ⟨k', k1', h'⟩ := bind_ok h'
      obtain rfl := ok_inj k1 k1'
      rw [← Except.ok.inj h, ← Except.ok.inj h']; dsimp only; rw [h1, h2, h3]
    · simp at h
  · obtain ⟨l, l1, h⟩ := bind_ok h
    obtain ⟨l', l1', h'⟩ := bind_ok h'
    obtain rfl := ok_inj l1 l1'
    obtain ⟨k, k1, h⟩ := bind_ok h
    obtain ⟨k', k1', h'⟩ := bind_ok h'
    obtain rfl := ok_inj k1 k1'
    rw [← Except.ok.inj h, ← Except.ok.inj h']; dsimp only; rw [h1, h2, h3]
  · obtain ⟨l, l1, h⟩ := bind_ok h
    obtain ⟨l', l1', h'⟩ := bind_ok h'
    obtain rfl := ok_inj l1 l1'
    rw [← Except.ok.inj h, ← Except.ok.inj h']; dsimp only; rw [h1, h2, h3]
  · obtain ⟨l, l1, h⟩ := bind_ok h
    obtain ⟨l', l1', h'⟩ := bind_ok h'
    obtain rfl := ok_inj l1 l1'
    rw [← Except.ok.inj h, ← Except.ok.inj h']; dsimp only; rw [h1, h2, h3]
    simp only [h5]
  · obtain ⟨l, l1, h⟩ := bind_ok h
    obtain ⟨l', l1', h'⟩ := bind_ok h'
    obtain rfl := ok_inj l1 l1'
    split at h
    · obtain ⟨k, k1, h⟩ := bind_ok h
      obtain ⟨k', k1', h'⟩ := bind_ok h'
      obtain rfl := ok_inj k1 k1'
      obtain ⟨_, _, h⟩ := bind_ok h
      obtain ⟨_, _, h'⟩ := bind_ok h'
      rw [← Except.ok.inj h, ← Except.ok.inj h']; dsimp only; rw [h1, h2, h3]
      simp only [h4]
    · simp at h
  · obtain ⟨l, l1, h⟩ := bind_ok h
    obtain ⟨l', l1', h'⟩ := bind_ok h'
    obtain rfl := ok_inj l1 l1'
    obtain ⟨_, _, h⟩ := bind_ok h
    obtain ⟨_, _, h'⟩ := bind_ok h'
    rw [← Except.ok.inj h, ← Except.ok.inj h']; dsimp only; rw [h1, h2]

theorem cell_row {c : Chain} {s : Site} {times times' : List ℝ} {a : PvArr} {w w' : DF} {poa e t poa' e' t' : Ser} {i i' : ℕ}
    (hf : c.temp ≠ .fuentes ∨ w.cols.get? "cell_temperature" ≠ none) (hw : SameRow w i w' i')
    (hp : poa i = poa' i') (he : e i = e' i')
    (h : CellSpec c s times a w poa e t) (h' : CellSpec c s times' a w' poa' e' t') : t i = t' i' := by
  unfold CellSpec at h h'
  cases h1 : w.cols.get? "cell_temperature" with
  | some t0 =>
    obtain ⟨t1, h2⟩ := Option.ne_none_iff_exists'.mp (fun h0 => by
      rw [(val_none hw "cell_temperature").mpr h0] at h1; simp at h1 : w'.cols.get? "cell_temperature" ≠ none)
    simp only [h1] at h
    simp only [h2] at h'
    rw [h, h', col_row hw h1 h2]
  | none =>
    have h2 := (val_none hw "cell_temperature").mp h1
    simp only [h1] at h
    simp only [h2] at h'
    have hf : c.temp ≠ .fuentes := by
      rcases hf with hf | hf
      · exact hf
      · exact absurd h1 hf
    by_cases hs : c.temp = .sapm
    · simp only [hs, if_true] at h h'
      cases h3 : w.cols.get? "module_temperature" with
      | some m =>
        obtain ⟨m', h4⟩ := Option.ne_none_iff_exists'.mp (fun h0 => by
          rw [(val_none hw "module_temperature").mpr h0] at h3; simp at h3 : w'.cols.get? "module_temperature" ≠ none)
        simp only [h3] at h
        simp only [h4] at h'
        obtain ⟨x, x1, x2⟩ := h
        obtain ⟨y, y1, y2⟩ := h'
        obtain rfl := ok_inj x1 y1
        rw [x2 i, y2 i', col_row hw h3 h4, hp]
      | none =>
        have h4 := (val_none hw "module_temperature").mp h3
        simp only [h3] at h
        simp only [h4] at h'
        exact getCell_row (by decide) hp (colOr_row hw.2 _ _) (colOr_row hw.2 _ _) (by simp [val]) rfl h h'
    · simp only [hs, if_false] at h h'
      refine getCell_row (by cases hk : c.temp <;> simp_all [TempModel.name]) hp (colOr_row hw.2 _ _) (colOr_row hw.2 _ _) ?_ rfl h h'
      by_cases hn : c.temp = .noct_sam <;> simp [hn, val, he]

theorem frame_names (o o' : ℕ → SapmOut) (h1 : (o 0).i_x.isSome = (o' 0).i_x.isSome) (h2 : (o 0).i_xx.isSome = (o' 0).i_xx.isSome)
    {i i' : ℕ} (h : o i = o' i') (name : String) : val ((sapmFrame o).get? name) i = val ((sapmFrame o').get? name) i' := by
  unfold sapmFrame
  rw [h1, h2]
  cases (o' 0).i_x.isSome <;> cases (o' 0).i_xx.isSome <;>
    simp only [if_true, Bool.false_eq_true, if_false, List.append_nil, List.cons_append, List.nil_append, val_cons, h] <;> rfl

theorem sapm_some {a : PvArr} {e t e' t' : Fl} {o o' : SapmOut} (h : sapmOf a e t = .ok o) (h' : sapmOf a e' t' = .ok o') :
    o.i_x.isSome = o'.i_x.isSome ∧ o.i_xx.isSome = o'.i_xx.isSome := by
  unfold sapmOf at h h'
  obtain ⟨l, l1, h⟩ := bind_ok h
  obtain ⟨l', l1', h'⟩ := bind_ok h'
  obtain rfl := ok_inj l1 l1'
  split at h
  · simp only at h'
    rw [← Except.ok.inj h, ← Except.ok.inj h']
    unfold sapm
    dsimp only
    constructor
    · cases optNum a.module_parameters "IXO" <;> cases optNum a.module_parameters "C4" <;> cases optNum a.module_parameters "C5" <;> rfl
    · cases optNum a.module_parameters "IXXO" <;> cases optNum a.module_parameters "C6" <;> cases optNum a.module_parameters "C7" <;> rfl
  · simp at h

theorem diode_names (o o' : ℕ → SevenPoints) {i i' : ℕ} (h : o i = o' i') (name : String) :
    val ((diodeFrame o).get? name) i = val ((diodeFrame o').get? name) i' := by
  simp only [diodeFrame, val_cons, h]
  rfl

theorem val_map {f g : Option Ser} {i i' : ℕ} (h : val f i = val g i') (u : Fl → Fl) :
    val (f.map fun v j => u (v j)) i = val (g.map fun v j => u (v j)) i' := by
  cases f <;> cases g <;> simp [val] at h ⊢
  rw [h]

theorem dc_row {c : Chain} {s : Site} {a : PvArr} {e t e' t' : Ser} {d d' : Dc} {i i' : ℕ} (he : e i = e' i') (ht : t i = t' i')
    (h : DcSpec c s a e t d) (h' : DcSpec c s a e' t' d') : DcAt d i d' i' := by
  unfold DcSpec at h h'
  cases hk : c.dc with
  | none => simp only [hk] at h
  | some m =>
    have diode : ∀ (q q' : ℕ → Five) (o o' : ℕ → SevenPoints) (f g : PyDict Ser),
        (∀ i, diodeParams m a (e i) (t i) = .ok (q i)) → (∀ i, diodeParams m a (e' i) (t' i) = .ok (q' i)) →
        (∀ i, singlediode s.numerics (q i) = .ok (o i)) → (∀ i, singlediode s.numerics (q' i) = .ok (o' i)) →
        (∀ name, f.get? name = ((diodeFrame o).get? name).map fun v i => fillna0 (scaledBy a name (v i))) →
        (∀ name, g.get? name = ((diodeFrame o').get? name).map fun v i => fillna0 (scaledBy a name (v i))) →
        DcAt (.frame f) i (.frame g) i' := by
      intro q q' o o' f g h1 h2 h3 h4 h5 h6 name
      have e1 : q i = q' i' := by
        have := h2 i'
        rw [← he, ← ht] at this
        exact ok_inj (h1 i) this
      have e2 : o i = o' i' := by
        have := h4 i'
        rw [← e1] at this
        exact ok_inj (h3 i) this
      rw [h5, h6]
      exact val_map (diode_names o o' e2 name) fun v => fillna0 (scaledBy a name v)
    cases m with
    | pvwatts =>
      simp only [hk] at h h'
      obtain ⟨p, q, rfl, h1⟩ := h
      obtain ⟨p', q', rfl, h2⟩ := h'
      show p i = p' i'
      have := (h2 i').1
      rw [← he, ← ht] at this
      rw [(h1 i).2, (h2 i').2, ok_inj (h1 i).1 this]
    | sapm =>
      simp only [hk] at h h'
      obtain ⟨f, o, rfl, h1, h2⟩ := h
      obtain ⟨f', o', rfl, g1, g2⟩ := h'
      have : o i = o' i' := by
        have := g1 i'
        rw [← he, ← ht] at this
        exact ok_inj (h1 i) this
      intro name
      rw [h2, g2]
      obtain ⟨s1, s2⟩ := sapm_some (h1 0) (g1 0)
      exact val_map (frame_names o o' s1 s2 this name) fun v => scaledBy a name v
    | desoto =>
      simp only [hk] at h h'
      obtain ⟨f, q, o, rfl, h1, h2, h3⟩ := h
      obtain ⟨f', q', o', rfl, g1, g2, g3⟩ := h'
      exact diode q q' o o' f f' h1 g1 h2 g2 h3 g3
    | cec =>
      simp only [hk] at h h'
      obtain ⟨f, q, o, rfl, h1, h2, h3⟩ := h
      obtain ⟨f', q', o', rfl, g1, g2, g3⟩ := h'
      exact diode q q' o o' f f' h1 g1 h2 g2 h3 g3
    | pvsyst =>
      simp only [hk] at h h'
      obtain ⟨f, q, o, rfl, h1, h2, h3⟩ := h
      obtain ⟨f', q', o', rfl, g1, g2, g3⟩ := h'
      exact diode q q' o o' f f' h1 g1 h2 g2 h3 g3

theorem ohmic_row {c : Chain} {a : PvArr} {d d' e e' : Dc} {i i' : ℕ} (hd : DcAt d i d' i')
    (h : OhmicSpec c a d e) (h' : OhmicSpec c a d' e') : DcAt e i e' i' := by
  unfold OhmicSpec at h h'
  cases hk : c.ohmic with
  | no_loss => simp only [hk] at h h'; subst h h'; exact hd
  | dc_ohms_from_percent =>
    simp only [hk] at h h'
    obtain ⟨f, g, u, p, o, rfl, rfl, h1, h2, h3, h4, h5⟩ := h
    obtain ⟨f', g', u', p', o', rfl, rfl, g1, g2, g3, g4, g5⟩ := h'
    have hd : ∀ name, val (f.get? name) i = val (f'.get? name) i' := hd
    have d1 := hd "i_mp"
    have d2 := hd "p_mp"
    rw [val_some h2, val_some g2] at d1
    rw [val_some h3, val_some g3] at d2
    obtain rfl := ok_inj h1 g1
    intro name
    by_cases hn : name = "p_mp"
    · subst hn; rw [val_some h4, val_some g4, Option.some.inj d1, Option.some.inj d2]
    · rw [h5 _ hn, g5 _ hn, hd]

theorem loss_row {c : Chain} {d d' e e' : Dc} {f f' : Fl} {i i' : ℕ} (hd : DcAt d i d' i')
    (h : LossSpec c d e f) (h' : LossSpec c d' e' f') : DcAt e i e' i' := by
  unfold LossSpec at h h'
  cases hk : c.losses with
  | no_loss => simp only [hk] at h h'; obtain ⟨rfl, rfl⟩ := h; obtain ⟨rfl, rfl⟩ := h'; exact hd
  | pvwatts =>
    simp only [hk] at h h'
    obtain ⟨l, h1, rfl, h3⟩ := h
    obtain ⟨l', g1, rfl, g3⟩ := h'
    obtain rfl := ok_inj h1 g1
    cases d <;> cases d' <;> cases e <;> cases e' <;> simp only [DcAt] at hd h3 g3 ⊢
    · rw [h3 i, g3 i', hd]
    · intro name; rw [h3, g3]; exact val_map (hd name) fun v => v * ((100 - l) / 100)

theorem power_row {c : Chain} {s : Site} {a : PvArr} {e t e' t' : Ser} {f f' : Fl} {d d' : Dc} {i i' : ℕ} (he : e i = e' i')
    (ht : t i = t' i') (h : PowerSpec c s a e t f d) (h' : PowerSpec c s a e' t' f' d') : DcAt d i d' i' := by
  obtain ⟨d0, d1, h1, h2, h3⟩ := h
  obtain ⟨d0', d1', g1, g2, g3⟩ := h'
  exact loss_row (ohmic_row (dc_row he ht h1 g1) h2 g2) h3 g3

theorem col_at {d d' : Dc} {i i' : ℕ} (h : DcAt d i d' i') {name : String} {v v' : Ser} (h1 : d.col name = .ok v) (h2 : d'.col name = .ok v') :
    v i = v' i' := by
  cases d <;> cases d' <;> simp only [DcAt] at h
  · simp [Dc.col] at h1
  · have := h name
    simp only [Dc.col] at h1 h2
    rw [val_some (argOf_ok h1), val_some (argOf_ok h2)] at this
    exact Option.some.inj this

theorem power_at {d d' : Dc} {i i' : ℕ} (h : DcAt d i d' i') {v v' : Ser} (h1 : d.power = .ok v) (h2 : d'.power = .ok v') : v i = v' i' := by
  cases d <;> cases d' <;> simp only [DcAt] at h
  · simp only [Dc.power, Except.ok.injEq] at h1 h2
    rw [← h1, ← h2, h]
  · simp [Dc.power] at h1

theorem cols_at {ds ds' : List Dc} {ps ps' : List Ser} {g : Dc → Except PyErr Ser} {i i' : ℕ} (hl : ds.length = ds'.length)
    (he : ∀ (k : ℕ) d d', ds[k]? = some d → ds'[k]? = some d' → DcAt d i d' i')
    (hg : ∀ d d' v v', DcAt d i d' i' → g d = .ok v → g d' = .ok v' → v i = v' i')
    (h : ds.map g = ps.map .ok) (h' : ds'.map g = ps'.map .ok) : (ps.map fun p => p i) = ps'.map fun p => p i' := by
  have l1 := maps_length h
  have l2 := maps_length h'
  apply List.ext_getElem?
  intro k
  by_cases hk : k < ds.length
  · have hk' : k < ds'.length := hl ▸ hk
    have hp : k < ps.length := by omega
    have hp' : k < ps'.length := by omega
    have a1 := congrArg (fun l => l[k]?) h
    have a2 := congrArg (fun l => l[k]?) h'
    simp only [List.getElem?_map, List.getElem?_eq_getElem hk, List.getElem?_eq_getElem hk', List.getElem?_eq_getElem hp,
      List.getElem?_eq_getElem hp', Option.map_some, Option.some.injEq] at a1 a2 ⊢
    exact hg _ _ _ _ (he k _ _ (List.getElem?_eq_getElem hk) (List.getElem?_eq_getElem hk')) a1 a2
  · rw [List.getElem?_eq_none (by simp; omega), List.getElem?_eq_none (by simp; omega)]

theorem ac_row {c : Chain} {ds ds' : List Dc} {ac ac' : Ser} {i i' : ℕ} (hl : ds.length = ds'.length)
    (he : ∀ (k : ℕ) d d', ds[k]? = some d → ds'[k]? = some d' → DcAt d i d' i') (h : AcSpec c ds ac) (h' : AcSpec c ds' ac') :
    ac i = ac' i' := by
  unfold AcSpec at h h'
  cases hk : c.ac <;> simp only [hk] at h h'
  · obtain ⟨ps, vs, h1, h2, h3⟩ := h
    obtain ⟨ps', vs', g1, g2, g3⟩ := h'
    have := g3 i'
    rw [← cols_at hl he (fun _ _ _ _ h => col_at h) h1 g1, ← cols_at hl he (fun _ _ _ _ h => col_at h) h2 g2] at this
    exact ok_inj (h3 i) this
  · obtain ⟨p, v, h1, h2, h3⟩ := h
    obtain ⟨p', v', g1, g2, g3⟩ := h'
    have e1 := cols_at (ps := [p]) (ps' := [p']) hl he (fun _ _ _ _ h => col_at h) h1 g1
    have e2 := cols_at (ps := [v]) (ps' := [v']) hl he (fun _ _ _ _ h => col_at h) h2 g2
    simp only [List.map_cons, List.map_nil, List.cons.injEq, and_true] at e1 e2
    have := g3 i'
    rw [← e1, ← e2] at this
    exact ok_inj (h3 i) this
  · obtain ⟨ps, q, h1, h2⟩ := h
    obtain ⟨ps', q', g1, g2⟩ := h'
    have := (g2 i').1
    rw [← cols_at hl he (fun _ _ _ _ h => power_at h) h1 g1] at this
    rw [(h2 i).2, (g2 i').2, ok_inj (h2 i).1 this]

theorem acfrom_row {c : Chain} {r r' : Results} {i i' : ℕ} (h : AcFrom c r) (h' : AcFrom c r')
    (hd : ∀ k, k < c.system.arrays.length → ∃ d d', part k r.dc = some d ∧ part k r'.dc = some d' ∧ DcAt d i d' i') : AcAt r i r' i' := by
  obtain ⟨ac, ds, h1, h2, h3, h4⟩ := h
  obtain ⟨ac', ds', g1, g2, g3, g4⟩ := h'
  refine ⟨ac, ac', h1, g1, ac_row (h2.trans g2.symm) ?_ h4 g4⟩
  intro k d d' hk hk'
  have hlt : k < c.system.arrays.length := by
    by_contra hn
    rw [List.getElem?_eq_none (by omega)] at hk
    simp at hk
  obtain ⟨x, x', e1, e2, e3⟩ := hd k hlt
  rw [h3 k hlt, hk] at e1
  rw [g3 k hlt, hk'] at e2
  obtain rfl := Option.some.inj e1; obtain rfl := Option.some.inj e2
  exact e3

theorem sky_row {c : Chain} {s : Site} (hs : RowWise s) {x x' : Input} {r r' : Results} {sp sp' : SolPos} {am am' : AirMass}
    {times times' : List ℝ} {i i' : ℕ} (hl : 0 < c.system.arrays.length) (hw : SameRows c x i x' i')
    (h : SkySpec c s x r sp am times) (h' : SkySpec c s x' r' sp' am' times') :
    (∃ t, times[i]? = some t ∧ times'[i']? = some t) ∧ sp.apparent_zenith i = sp'.apparent_zenith i' ∧ sp.azimuth i = sp'.azimuth i' ∧
      am.relative i = am'.relative i' ∧ am.absolute i = am'.absolute i' := by
  obtain ⟨d, d1, d2⟩ := h.position
  obtain ⟨d', d1', d2'⟩ := h'.position
  have hd := hw 0 hl d d' d1 d1'
  obtain ⟨t, t1, t2⟩ := hd.1
  rw [h.index d (frame0 d1)] at t1
  rw [h'.index d' (frame0 d1')] at t2
  obtain ⟨z1, z2, z3⟩ := hs.position _ _ _ _ _ _ _ _ _ _ _ _ t1 t2 (hd.2 "pressure") (hd.2 "temp_air") d2 d2'
  have e := h.airmass i
  have e' := h'.airmass i'
  rw [← z1, ← z2] at e'
  have := ok_inj e e'
  simp only [Prod.mk.injEq] at this
  exact ⟨⟨t, t1, t2⟩, z2, z3, this⟩

/-! ### C203 -/

/-- **C203a.** Each row of a run of `run_model` depends on this row of the data only: whatever the other rows hold, however many there
are and wherever the row stands, every result of every array and the AC power of the row are the same.  So a series may be cut,
reordered, filtered or processed row by row.  (The temperature model `fuentes` has a memory and is excluded.) -/
theorem rows_independent {c : Chain} {s : Site} (hs : RowWise s) {x x' : Input} {r r' q q' : Results} {i i' : ℕ} (hl : c.system.arrays ≠ [])
    (ht : c.temp ≠ .fuentes ∨ HasCols x ["cell_temperature"])
    (h : runModel c s x r = .ok q) (h' : runModel c s x' r' = .ok q') (hw : SameRows c x i x' i') :
    (∀ k, k < c.system.arrays.length → ArrayAt q i q' i' k) ∧ AcAt q i q' i' := by
  have hl0 : 0 < c.system.arrays.length := List.length_pos_iff.mpr hl
  obtain ⟨sp, am, times, f, s1, -, p⟩ := run_model_array h
  obtain ⟨sp', am', times', f', s1', -, p'⟩ := run_model_array h'
  obtain ⟨⟨t, t1, t2⟩, z1, z2, m1, m2⟩ := sky_row hs hl0 hw s1 s1'
  have hA : AllAlbedo x ↔ AllAlbedo x' :=
    hasCols_rows hl (run_model_accepts c s x r q h).1 (run_model_accepts c s x' r' q' h').1 hw
  have main : ∀ k, k < c.system.arrays.length → ArrayAt q i q' i' k := by
    intro k hk
    obtain ⟨w, ti, aoi, iam, sm, e, t, d, h1, h2, h3, h4, h5, h6⟩ := p k _ (List.getElem?_eq_getElem hk)
    obtain ⟨w', ti', aoi', iam', sm', e', t', d', g1, g2, g3, g4, g5, g6⟩ := p' k _ (List.getElem?_eq_getElem hk)
    have hws := hw k hk w w' h1 g1
    have hti := poa_row hs t1 t2 z1 z2 m1 hws hA h3 g3
    obtain ⟨o1, o2, o3, o4⟩ := optics_row hws z1 z2 m2 (hti _) (hti _) h4 g4
    have ht' : c.temp ≠ .fuentes ∨ w.cols.get? "cell_temperature" ≠ none :=
      ht.imp id fun h => h w (frame_mem h1) _ (by simp)
    have ec := cell_row ht' hws (colOr_row hti _ _) o4 h5 g5
    exact ⟨⟨⟨e, e', h2.effective_irradiance, g2.effective_irradiance, o4⟩, ⟨t, t', h2.cell_temperature, g2.cell_temperature, ec⟩,
      ⟨d, d', h2.dc, g2.dc, power_row o4 ec h6 g6⟩⟩, ⟨ti, ti', h2.total_irrad, g2.total_irrad, hti⟩, ⟨aoi, aoi', h2.aoi, g2.aoi, o1⟩,
      ⟨iam, iam', h2.aoi_modifier, g2.aoi_modifier, o2⟩, ⟨sm, sm', h2.spectral_modifier, g2.spectral_modifier, o3⟩⟩
  exact ⟨main, acfrom_row (run_ac (Or.inl h)) (run_ac (Or.inl h')) fun k hk => (main k hk).dc⟩

/-- **C203b.** The same for `run_model_from_poa`. -/
theorem rows_independent_poa {c : Chain} {s : Site} (hs : RowWise s) {x x' : Input} {r r' q q' : Results} {i i' : ℕ}
    (hl : c.system.arrays ≠ []) (ht : c.temp ≠ .fuentes ∨ HasCols x ["cell_temperature"])
    (h : runModelFromPoa c s x r = .ok q) (h' : runModelFromPoa c s x' r' = .ok q') (hw : SameRows c x i x' i') :
    (∀ k, k < c.system.arrays.length → PowerAt q i q' i' k) ∧ AcAt q i q' i' := by
  have hl0 : 0 < c.system.arrays.length := List.length_pos_iff.mpr hl
  obtain ⟨sp, am, times, f, s1, -, p⟩ := run_poa_array h
  obtain ⟨sp', am', times', f', s1', -, p'⟩ := run_poa_array h'
  obtain ⟨⟨t, t1, t2⟩, z1, z2, m1, m2⟩ := sky_row hs hl0 hw s1 s1'
  have main : ∀ k, k < c.system.arrays.length → PowerAt q i q' i' k := by
    intro k hk
    obtain ⟨w, ti, aoi, iam, sm, e, t, d, h1, h2, h3, h4, h5, h6⟩ := p k _ (List.getElem?_eq_getElem hk)
    obtain ⟨w', ti', aoi', iam', sm', e', t', d', g1, g2, g3, g4, g5, g6⟩ := p' k _ (List.getElem?_eq_getElem hk)
    have hws := hw k hk w w' h1 g1
    have hti : ∀ name ∈ ["poa_global", "poa_direct", "poa_diffuse"], val (ti.cols.get? name) i = val (ti'.cols.get? name) i' :=
      fun n hn => by rw [h3 n hn, g3 n hn]; exact hws.2 n
    obtain ⟨o1, o2, o3, o4⟩ := optics_row hws z1 z2 m2 (hti _ (by simp)) (hti _ (by simp)) h4 g4
    have ht' : c.temp ≠ .fuentes ∨ w.cols.get? "cell_temperature" ≠ none :=
      ht.imp id fun h => h w (frame_mem h1) _ (by simp)
    have ec := cell_row ht' hws (colOr_row hws.2 _ _) o4 h5 g5
    exact ⟨⟨e, e', h2.effective_irradiance, g2.effective_irradiance, o4⟩, ⟨t, t', h2.cell_temperature, g2.cell_temperature, ec⟩,
      ⟨d, d', h2.dc, g2.dc, power_row o4 ec h6 g6⟩⟩
  exact ⟨main, acfrom_row (run_ac (Or.inr (Or.inl h))) (run_ac (Or.inr (Or.inl h'))) fun k hk => (main k hk).dc⟩

/-- **C203c.** The same for `run_model_from_effective_irradiance`, which needs nothing of the site. -/
theorem rows_independent_eff {c : Chain} {s : Site} {x x' : Input} {r r' q q' : Results} {i i' : ℕ}
    (hl : c.system.arrays ≠ []) (ht : c.temp ≠ .fuentes ∨ HasCols x ["cell_temperature"])
    (h : runModelFromEff c s x r = .ok q) (h' : runModelFromEff c s x' r' = .ok q') (hw : SameRows c x i x' i') :
    (∀ k, k < c.system.arrays.length → PowerAt q i q' i' k) ∧ AcAt q i q' i' := by
  obtain ⟨times, f, s1, -, p⟩ := run_eff_array h
  obtain ⟨times', f', s1', -, p'⟩ := run_eff_array h'
  have hA : HasCols x ["poa_global"] ↔ HasCols x' ["poa_global"] :=
    hasCols_rows hl (strict_weak (run_eff_accepts c s x r q h).1) (strict_weak (run_eff_accepts c s x' r' q' h').1) hw
  have main : ∀ k, k < c.system.arrays.length → PowerAt q i q' i' k := by
    intro k hk
    obtain ⟨w, e, t, d, h1, h2, h3, h4, h5, h6, h7⟩ := p k _ (List.getElem?_eq_getElem hk)
    obtain ⟨w', e', t', d', g1, g2, g3, g4, g5, g6, g7⟩ := p' k _ (List.getElem?_eq_getElem hk)
    have hws := hw k hk w w' h1 g1
    have ee := col_row hws h2 g2
    have ht' : c.temp ≠ .fuentes ∨ w.cols.get? "cell_temperature" ≠ none :=
      ht.imp id fun h => h w (frame_mem h1) _ (by simp)
    have ec := cell_row ht' hws (by rw [if_congr hA rfl rfl]; split_ifs
                                    · exact colOr_row hws.2 _ _
                                    · exact ee) ee h6 g6
    exact ⟨⟨e, e', h3, g3, ee⟩, ⟨t, t', h4, g4, ec⟩, ⟨d, d', h5, g5, power_row ee ec h7 g7⟩⟩
  exact ⟨main, acfrom_row (run_ac (Or.inr (Or.inr h))) (run_ac (Or.inr (Or.inr h'))) fun k hk => (main k hk).dc⟩

/-! ### The hypotheses are met -/

section Witness
open Pvlib.Props.ChainTotal Pvlib.Props.ChainConfig Pvlib.Props.ChainWitness

theorem exSite_rowwise (n : Numerics) (t : Irradiance.PerezTable) : RowWise (exSite n t) := by
  constructor
  · intro times times' m p p' ta ta' sp sp' i i' τ _ _ _ _ h h'
    simp only [exSite, Except.ok.injEq] at h h'
    subst h h'
    exact ⟨rfl, rfl, rfl⟩
  · intro times times' i i' τ _ _
    rfl

/-- Three hours of a day. -/
def morning : DF := ⟨[10, 11, 12], [("ghi", fun i => fin (100 * i)), ("dni", fun i => fin (200 * i)), ("dhi", fun _ => 50)]⟩
/-- One of these hours alone, after another one of another day. -/
def noon : DF := ⟨[4, 12], [("ghi", fun i => if i = 1 then 200 else 0), ("dni", fun i => if i = 1 then 400 else 0), ("dhi", fun _ => 50)]⟩

theorem noon_row : SameRow morning 2 noon 1 := by
  refine ⟨⟨12, rfl, rfl⟩, fun name => ?_⟩
  simp only [morning, noon, val_cons]
  by_cases h1 : "ghi" = name
  · rw [if_pos h1, if_pos h1, if_pos trivial, ofNat_eq]; norm_num
  · by_cases h2 : "dni" = name
    · rw [if_neg h1, if_pos h2, if_neg h1, if_pos h2, if_pos trivial, ofNat_eq]; norm_num
    · rw [if_neg h1, if_neg h2, if_neg h1, if_neg h2]; rfl

example (n : Numerics) (t : Irradiance.PerezTable) (r r' : Results) : ∃ c q q', runModel c (exSite n t) (.frame morning) r = .ok q ∧
    runModel c (exSite n t) (.frame noon) r' = .ok q' ∧ (∀ k, k < 2 → ArrayAt q 2 q' 1 k) ∧ AcAt q 2 q' 1 := by
  obtain ⟨c, hc⟩ := twoChain
  have e := ((pvwatts_preset twoSystem c).mp hc).2.2
  obtain ⟨q, hq⟩ := pvwatts_chain_runs (s := exSite n t) twoData hc (fun _ _ _ => ⟨_, rfl⟩) (by simp [exSite])
    (x := .frame morning) (.inl trivial) (by simp [HasCols, frames, morning, PyDict.get?]) r
  obtain ⟨q', hq'⟩ := pvwatts_chain_runs (s := exSite n t) twoData hc (fun _ _ _ => ⟨_, rfl⟩) (by simp [exSite])
    (x := .frame noon) (.inl trivial) (by simp [HasCols, frames, noon, PyDict.get?]) r'
  have hs : c.system = twoSystem := by rw [e]
  have ht : c.temp ≠ .fuentes := by rw [e]; decide
  have hw : SameRows c (.frame morning) 2 (.frame noon) 1 := by
    intro k _ w w' h h'
    simp only [frameFor, Option.some.injEq] at h h'
    subst h h'
    exact noon_row
  have := rows_independent (exSite_rowwise n t) (by rw [hs]; simp [twoSystem]) (.inl ht) hq hq' hw
  rw [hs] at this
  exact ⟨c, q, q', hq, hq', this⟩

end Witness

end Pvlib.Props.ChainRows
end
