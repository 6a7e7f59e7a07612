import Verif.Props.ChainFacts

/-! # Property C100: a well configured chain runs on every well formed input -/

noncomputable section
open scoped Classical
namespace Pvlib.Props.ChainTotal
open Fl Pvlib.Tools Pvlib.PvFunctions Pvlib.PvSystem Pvlib.ModelChain Pvlib.Props.PvSystem Pvlib.Props.ChainRun
  Pvlib.Props.ChainArrays Pvlib.Props.ArrayClass Pvlib.Props.ChainConfig

/-! ### Specification -/

/-- The models from the effective irradiance on compute for every array, whatever the weather. -/
structure AblePower (c : Chain) (s : Site) : Prop where
  temp : ∀ a ∈ c.system.arrays, ∀ w : Weather, (c.temp = .noct_sam → w.effective_irradiance ≠ none) →
    ∃ t, a.getCellTemperature s.sigma w c.temp.name = .ok t
  delta : c.temp = .sapm → ∀ a ∈ c.system.arrays, ∃ d, getNum a.temperature_model_parameters "deltaT" = .ok d
  dc : ∃ m, c.dc = some m ∧ ∀ a ∈ c.system.arrays, Computes m a
  ohmic : c.ohmic = .no_loss ∨ (c.dc ≠ some .pvwatts ∧ ∀ a ∈ c.system.arrays, ∃ o, a.dcOhms = .ok o)
  losses : c.losses = .no_loss ∨ ∃ l, c.system.pvwattsLosses = .ok l
  ac : (c.ac = .pvwatts ∧ c.dc = some .pvwatts ∧ ∀ ps : List Fl, ps.length = c.system.arrays.length →
      ∃ p, c.system.getAc "pvwatts" (.tuple ps) none = .ok p) ∨
    (c.ac = .sandia ∧ c.dc ≠ some .pvwatts ∧ ∀ ps vs : List Fl, ps.length = c.system.arrays.length →
      vs.length = c.system.arrays.length → ∃ p, c.system.getAc "sandia" (.tuple ps) (some (.tuple vs)) = .ok p)

/-- The optical models compute for every array, at every angle; the sky model knows the position of the sun. -/
structure AbleOptics (c : Chain) (s : Site) (x : Input) : Prop where
  sun : ∀ times p t, ∃ sp, s.solarPosition times c.solar_position_method p t = .ok sp
  airmass : ∀ z a, ∃ am, Location.getAirmass s.altitude z a c.airmass_model = .ok am
  aoi : c.aoi = .no_loss ∨ ∀ a ∈ c.system.arrays, ∀ v, ∃ y, a.getIam s.interpolator v c.aoi.name = .ok y
  spectral : match c.spectral with
    | .no_loss => True
    | .sapm => ∀ a ∈ c.system.arrays, ∀ v, ∃ y, sapmSpectralOf a v = .ok y
    | .first_solar => HasCols x ["precipitable_water"] ∧ ∀ a ∈ c.system.arrays, ∀ v w, ∃ y, firstSolarOf a v w = .ok y
  fd : ∀ a ∈ c.system.arrays, ∃ fd, fdOf a = .ok fd

/-- The transposition model computes for every array. -/
def AblePoa (c : Chain) (s : Site) : Prop :=
  ∀ a ∈ c.system.arrays, ∀ e z az dni ghi dhi am al,
    ∃ p, a.getIrradiance s.tb (some e) z az dni ghi dhi none (some am) (some al) c.transposition_model = .ok p

/-! ### Steps -/

private theorem bind_of {α β : Type} {x : Except PyErr α} {f : α → Except PyErr β} (h : ∃ a, x = .ok a)
    (hf : ∀ a, x = .ok a → ∃ y, f a = .ok y) : ∃ y, x.bind f = .ok y := by
  obtain ⟨a, ha⟩ := h
  obtain ⟨y, hy⟩ := hf a ha
  exact ⟨y, by rw [ha]; exact hy⟩

private theorem gather_of {α : Type} {f : ℕ → Except PyErr α} (h : ∀ i, ∃ y, f i = .ok y) : ∃ g, gather f = .ok g := by
  have h' : ∃ g : ℕ → α, ∀ i, f i = .ok (g i) := ⟨fun i => Classical.choose (h i), fun i => Classical.choose_spec (h i)⟩
  unfold gather
  rw [dif_pos h']
  exact ⟨_, rfl⟩

private theorem collect_of {β : Type} {l : List (Except PyErr β)} (h : ∀ x ∈ l, ∃ y, x = .ok y) : ∃ ys, collect l = .ok ys := by
  induction l with
  | nil => exact ⟨[], rfl⟩
  | cons x l ih =>
    obtain ⟨y, rfl⟩ := h x (by simp)
    obtain ⟨ys, hy⟩ := ih fun z hz => h z (by simp [hz])
    exact ⟨y :: ys, by simp [collect, hy, Except.bind]⟩

private theorem collect_len {β : Type} {l : List (Except PyErr β)} {ys : List β} (h : collect l = .ok ys) : ys.length = l.length := by
  have := (collect_ok_iff l ys).mp h
  simp [this]

private theorem unwrapped_of {β : Type} {u : Bool} {l : List (Except PyErr β)} (h : ∀ x ∈ l, ∃ y, x = .ok y) :
    ∃ ys, unwrapped u l = .ok ys := by
  obtain ⟨ys, hy⟩ := collect_of h
  unfold unwrapped
  rw [hy]
  exact ⟨_, rfl⟩

private theorem need_of {α : Type} {x : Option α} {y : α} (h : x = some y) : ∃ a, need x = .ok a := ⟨y, by rw [h]; rfl⟩

private theorem shape_need {α : Type} {sys : System} {x : Input} {v : Option (PerArray α)} (h : Shape sys x v) : ∃ a, need v = .ok a := by
  unfold Shape at h
  split_ifs at h
  · obtain ⟨y, hy⟩ := h; exact need_of hy
  · obtain ⟨y, hy, _⟩ := h; exact need_of hy

private theorem need_shape {α : Type} {sys : System} {x : Input} {v : Option (PerArray α)} {a : PerArray α} (h : Shape sys x v)
    (hn : need v = .ok a) : Shape sys x (some a) := by
  rw [need_ok hn] at h; exact h

private theorem validate_of {α : Type} {sys : System} {x : Input} {v : PerArray α} (h : Shape sys x (some v)) (wide : Bool) :
    ∃ ys, validatePerArray sys v wide = .ok ys := by
  unfold Shape at h
  split_ifs at h with hb
  · obtain ⟨y, hy⟩ := h
    obtain rfl := Option.some.inj hy
    cases wide
    · exact ⟨[y], by simp [validatePerArray, hb.2]⟩
    · exact ⟨_, by simp only [validatePerArray, if_true]; rfl⟩
  · obtain ⟨y, hy, hl⟩ := h
    obtain rfl := Option.some.inj hy
    exact ⟨y, by simp [validatePerArray, hl]⟩

private theorem validate_bare {α : Type} {sys : System} (v : α) : ∃ ys, validatePerArray sys (.one v) true = .ok ys :=
  ⟨_, by simp [validatePerArray]; rfl⟩

private theorem col_of {d : DF} {name : String} (h : d.cols.get? name ≠ none) : ∃ z, d.col name = .ok z := by
  obtain ⟨z, hz⟩ := Option.ne_none_iff_exists'.mp h
  exact ⟨z, by simp [DF.col, argOf, hz]⟩

private theorem len_of {sys : System} {ds : List DF} {x : Input} (hd : x = .tuple ds ∨ x = .list ds) (hx : Bare x ∨ Matches sys x) :
    ds.length = sys.arrays.length := by
  rcases hd with rfl | rfl <;> rcases hx with hb | hm
  · simp [Bare] at hb
  · exact hm.1
  · simp [Bare] at hb
  · exact hm.1

/-- A column of all the frames. -/
private theorem cols_of {sys : System} {x : Input} {f : DF → DF} {name : String} (hx : Bare x ∨ Matches sys x)
    (h : ∀ d ∈ frames x, (f d).cols.get? name ≠ none) :
    ∃ r, tupleFromDfs (wrapIf (single sys x) (PerArray.map f (toTuple x))) name = .ok r ∧
      (∃ ys, validatePerArray sys r true = .ok ys) := by
  have tup : ∀ ds : List DF, ds.length = sys.arrays.length → (∀ d ∈ ds, (f d).cols.get? name ≠ none) →
      ∃ r, tupleFromDfs (.tuple (ds.map f)) name = .ok r ∧ ∃ ys, validatePerArray sys r true = .ok ys := by
    intro ds hl hd
    obtain ⟨ys, hy⟩ := collect_of (l := (ds.map f).map fun d => d.col name) (by
      intro z hz
      simp only [List.mem_map] at hz
      obtain ⟨_, ⟨d, hd', rfl⟩, rfl⟩ := hz
      exact col_of (hd d hd'))
    refine ⟨.tuple ys, by simp only [tupleFromDfs, hy, Except.bind], ys, ?_⟩
    have := collect_len hy
    simp at this
    simp [validatePerArray, this, hl]
  cases x with
  | frame d =>
    obtain ⟨z, hz⟩ := col_of (h d (by simp [frames]))
    refine ⟨.one z, by simp [toTuple, PerArray.map, wrapIf, single, isTuple, tupleFromDfs, hz, Except.bind], validate_bare z⟩
  | tuple ds => exact tup ds (len_of (.inl rfl) hx) h
  | list ds => exact tup ds (len_of (.inr rfl) hx) h

private theorem tuple_ok {sys : System} {x : Input} {f : DF → DF} {name : String} {w : Option (PerArray DF)} {v : PerArray DF}
    (hx : Bare x ∨ Matches sys x) (hw : w = some (wrapIf (single sys x) (PerArray.map f (toTuple x)))) (hv : need w = .ok v)
    (h : ∀ d ∈ frames x, (f d).cols.get? name ≠ none) :
    ∃ r, tupleFromDfs v name = .ok r ∧ ∃ ys, validatePerArray sys r true = .ok ys := by
  have := need_eq hv hw
  subst this
  exact cols_of hx h

private theorem weather_ok {sys : System} {x : Input} {r : Results} (hn : sys.arrays ≠ []) (hx : Bare x ∨ Matches sys x) :
    ∃ r', assignWeather sys (toTuple x) r = .ok r' := by
  have tup : ∀ ds : List DF, ds.length = sys.arrays.length → ∃ r', assignWeather sys (.tuple ds) r = .ok r' := by
    intro ds hl
    cases ds with
    | nil => simp at hl; exact absurd (List.length_eq_zero_iff.mp hl.symm) hn
    | cons d ds => exact ⟨_, by simp only [assignWeather, PerArray.map, List.map_cons, wrapIf, assignTimes]; rfl⟩
  cases x with
  | frame d => exact ⟨_, by simp only [assignWeather, toTuple, PerArray.map, PerArray.isTuple, Bool.and_false, wrapIf, assignTimes]; rfl⟩
  | tuple ds => exact tup ds (len_of (.inl rfl) hx)
  | list ds => exact tup ds (len_of (.inr rfl) hx)

private theorem zip_fst {α β : Type} {as : List α} {bs : List β} {p : α × β} (h : p ∈ as.zip bs) : p.1 ∈ as :=
  (List.of_mem_zip (a := p.1) (b := p.2) h).1

private theorem irradTemp_ok {sys : System} {x : Input} {ti : PerArray DF} {e : Option (PerArray Ser)} (he : Shape sys x e) :
    ∃ poa, irradForCelltemp ti e = .ok poa := by
  unfold irradForCelltemp
  cases ti with
  | tuple dfs =>
    by_cases h : (dfs.all fun d => d.has "poa_global") = true
    · simp only [h, if_true]
      unfold tupleFromDfs
      refine bind_of (collect_of fun z hz => ?_) fun _ _ => ⟨_, rfl⟩
      simp only [List.mem_map] at hz
      obtain ⟨d, hd, rfl⟩ := hz
      have := List.all_eq_true.mp h d hd
      exact col_of (by simpa [DF.has, Option.isSome_iff_ne_none] using this)
    · simp only [h]; exact shape_need he
  | one df =>
    by_cases h : df.has "poa_global" = true
    · simp only [h, if_true]
      unfold tupleFromDfs
      exact bind_of (col_of (by simpa [DF.has, Option.isSome_iff_ne_none] using h)) fun _ _ => ⟨_, rfl⟩
    · simp only [h]; exact shape_need he

variable {c : Chain} {s : Site} {x : Input} {r : Results} {times : List ℝ}

private theorem shape_map {α β : Type} {sys : System} (f : α → β) {v : PerArray α} (h : Shape sys x (some v)) :
    Shape sys x (some (PerArray.map f v)) := by
  unfold Shape at h ⊢
  split_ifs at h ⊢
  · obtain ⟨y, hy⟩ := h; obtain rfl := Option.some.inj hy; exact ⟨_, rfl⟩
  · obtain ⟨y, hy, hl⟩ := h; obtain rfl := Option.some.inj hy; exact ⟨_, rfl, by simpa using hl⟩

private theorem runTemp_ok (A : AblePower c s) (hx : Bare x ∨ Matches c.system x)
    (ht : Shape c.system x r.total_irrad) (he : Shape c.system x r.effective_irradiance) (h3 : r.times = some times)
    (h5 : r.weather = some (wrapIf (single c.system x) (PerArray.map buildWeather (toTuple x)))) :
    ∃ r', runTemp c s r = .ok r' := by
  unfold runTemp
  refine bind_of (shape_need ht) fun ti hti => bind_of (irradTemp_ok he) fun poa hpoa => bind_of (need_of h5) fun w hw => ?_
  have hp := (irrad_spec hpoa (need_shape ht hti) he).1
  obtain ⟨ta, hta, tv, htv⟩ := tuple_ok (name := "temp_air") hx h5 hw fun d _ => by rw [weather_temp]; simp
  obtain ⟨ws, hws, wv, hwv⟩ := tuple_ok (name := "wind_speed") hx h5 hw fun d _ => by rw [weather_wind]; simp
  refine bind_of ⟨ta, hta⟩ fun ta' e1 => bind_of ⟨ws, hws⟩ fun ws' e2 => ?_
  obtain rfl := Except.ok.inj (hta.symm.trans e1)
  obtain rfl := Except.ok.inj (hws.symm.trans e2)
  obtain ⟨pv, hpv⟩ := validate_of hp false
  have eff : ∃ ei, (if c.temp = .noct_sam then (need r.effective_irradiance).bind fun e => .ok (PerArray.map some e)
      else .ok (.one none) : Except PyErr (PerArray (Option Ser))) = .ok ei ∧ ∃ ev, validatePerArray c.system ei true = .ok ev ∧
        (c.temp = .noct_sam → ∀ v ∈ ev, v ≠ none) := by
    by_cases hn : c.temp = .noct_sam
    · simp only [hn, if_true]
      obtain ⟨e, hne⟩ := shape_need he
      have hse := shape_map some (need_shape he hne)
      obtain ⟨ev, hev⟩ := validate_of hse true
      refine ⟨_, by rw [hne]; rfl, ev, hev, fun _ v hv => ?_⟩
      cases e with
      | one y =>
        simp only [PerArray.map, validatePerArray, if_true, Except.ok.injEq] at hev
        subst hev
        rw [List.eq_of_mem_replicate hv]; simp
      | tuple ys =>
        simp only [PerArray.map, validatePerArray] at hev
        split_ifs at hev
        have := Except.ok.inj hev
        subst this
        simp only [List.mem_map] at hv
        obtain ⟨_, _, rfl⟩ := hv
        simp
    · simp only [hn, if_false]
      obtain ⟨ev, hev⟩ := validate_bare (sys := c.system) (none : Option Ser)
      exact ⟨_, rfl, ev, hev, fun h => h.elim⟩
  obtain ⟨ei, hei, ev, hev, hev'⟩ := eff
  refine bind_of ⟨ei, hei⟩ fun ei' e3 => bind_of (need_of h3) fun tms htms => ?_
  obtain rfl := Except.ok.inj (hei.symm.trans e3)
  refine bind_of ?_ fun t _ => ⟨_, rfl⟩
  unfold System.getCellTemperature
  obtain ⟨lv, hlv⟩ := validate_bare (sys := c.system) (none : Option Ser)
  rw [hpv, htv, hwv, hev, hlv]
  simp only [Except.bind]
  refine unwrapped_of fun z hz => ?_
  simp only [List.mem_map] at hz
  obtain ⟨p, hp', rfl⟩ := hz
  refine A.temp p.1 (zip_fst hp') _ fun hn => ?_
  have m1 := (List.of_mem_zip (a := p.1) (b := p.2) hp').2
  have m2 := (List.of_mem_zip (a := p.2.1) (b := p.2.2) m1).2
  have m3 := (List.of_mem_zip (a := p.2.2.1) (b := p.2.2.2) m2).2
  have m4 := (List.of_mem_zip (a := p.2.2.2.1) (b := p.2.2.2.2) m3).2
  have m5 := (List.of_mem_zip (a := p.2.2.2.2.1) (b := p.2.2.2.2.2) m4).1
  exact hev' hn _ m5

private theorem given_ok (A : AblePower c s) {a : PvArr} (ha : a ∈ c.system.arrays) (d : DF) (poa : Ser) :
    ∃ g, givenCellTemperature c d poa a.temperature_model_parameters = .ok g := by
  unfold givenCellTemperature
  cases d.cols.get? "cell_temperature" with
  | some t => exact ⟨_, rfl⟩
  | none =>
    cases d.cols.get? "module_temperature" with
    | none => exact ⟨_, rfl⟩
    | some m =>
      by_cases h : c.temp = .sapm
      · simp only [h, if_true]
        exact bind_of (A.delta h a ha) fun _ _ => ⟨_, rfl⟩
      · simp only [h, if_false]; exact ⟨_, rfl⟩

private theorem many_ok (A : AblePower c s) (hx : Bare x ∨ Matches c.system x) (hnb : ¬ (Bare x ∧ c.system.arrays.length = 1))
    (ht : Shape c.system x r.total_irrad) (he : Shape c.system x r.effective_irradiance) (h3 : r.times = some times)
    (h5 : r.weather = some (wrapIf (single c.system x) (PerArray.map buildWeather (toTuple x))))
    (hsi : r.singleton = single c.system x) {poa : PerArray Ser} (hp : Shape c.system x (some poa)) (dfs : List DF) :
    ∃ r', manyTemps c s r poa dfs = .ok r' := by
  unfold manyTemps
  have hp' : ∃ ps, poa = .tuple ps := by
    unfold Shape at hp
    rw [if_neg hnb] at hp
    obtain ⟨ys, hy, _⟩ := hp
    exact ⟨ys, Option.some.inj hy⟩
  obtain ⟨ps, rfl⟩ := hp'
  refine bind_of ⟨ps, rfl⟩ fun ps' _ => bind_of (collect_of fun z hz => ?_) fun given _ => ?_
  · simp only [List.mem_map] at hz
    obtain ⟨p, hp', rfl⟩ := hz
    have m1 := (List.of_mem_zip (a := p.1) (b := p.2) hp').2
    have m2 := (List.of_mem_zip (a := p.2.1) (b := p.2.2) m1).2
    simp only [List.mem_map] at m2
    obtain ⟨a, ha, e⟩ := m2
    rw [← e]
    exact given_ok A ha _ _
  · by_cases hg : given.all Option.isSome = true
    · simp only [hg, if_true]; exact ⟨_, rfl⟩
    · simp only [hg]
      refine bind_of (runTemp_ok A hx ht he h3 h5) fun r2 h2 => ?_
      obtain ⟨v, rfl, hv, _⟩ := runTemp_spec h2 hx ht he h3 h5 hsi
      refine bind_of (shape_need hv) fun t hnt => ?_
      have hv' := need_shape hv hnt
      unfold Shape at hv'
      rw [if_neg hnb] at hv'
      obtain ⟨ys, hy, _⟩ := hv'
      obtain rfl := Option.some.inj hy
      exact ⟨_, rfl⟩

private theorem temperature_ok (A : AblePower c s) (hx : Bare x ∨ Matches c.system x)
    (ht : Shape c.system x r.total_irrad) (he : Shape c.system x r.effective_irradiance) (h3 : r.times = some times)
    (h5 : r.weather = some (wrapIf (single c.system x) (PerArray.map buildWeather (toTuple x))))
    (hsi : r.singleton = single c.system x) : ∃ r', prepareTemperature c s (toTuple x) r = .ok r' := by
  unfold prepareTemperature
  refine bind_of (shape_need ht) fun ti hti => bind_of (irradTemp_ok he) fun poa hpoa => ?_
  have hp := (irrad_spec hpoa (need_shape ht hti) he).1
  cases x with
  | tuple ds => exact many_ok A hx (by simp [Bare]) ht he h3 h5 hsi hp ds
  | list ds => exact many_ok A hx (by simp [Bare]) ht he h3 h5 hsi hp ds
  | frame d =>
    simp only [toTuple]
    by_cases hn : c.system.arrays.length = 1
    · rw [if_pos hn]
      obtain ⟨a, har⟩ := List.length_eq_one_iff.mp hn
      have hb : Bare (.frame d) := by simp [Bare]
      cases poa with
      | tuple ps => exact absurd (shape_tuple hp).2 (by simp [hb, hn])
      | one p0 =>
        rw [har]
        simp only
        refine bind_of (given_ok A (a := a) (by rw [har]; simp) d p0) fun g _ => ?_
        cases g with
        | some t => exact ⟨_, rfl⟩
        | none => exact runTemp_ok (r := { r with cell_temperature := none }) (x := .frame d) A hx ht he h3 h5
    · rw [if_neg hn]
      exact many_ok A hx (fun h => hn h.2) ht he h3 h5 hsi hp _

/-! ### DC power -/

private theorem dcArgs_ok (he : Shape c.system x r.effective_irradiance) (ht : Shape c.system x r.cell_temperature) :
    ∃ args, dcArgs c r = .ok args ∧ (∀ p ∈ args, p.1 ∈ c.system.arrays) := by
  obtain ⟨e, he1⟩ := shape_need he
  obtain ⟨t, ht1⟩ := shape_need ht
  obtain ⟨es, he2⟩ := validate_of (need_shape he he1) false
  obtain ⟨ts, ht2⟩ := validate_of (need_shape ht ht1) false
  refine ⟨c.system.arrays.zip (es.zip ts), by simp [dcArgs, he1, ht1, he2, ht2, Except.bind], fun p hp => zip_fst hp⟩

private theorem scale_ok (f : PyDict Ser) (v i : Fl)
    (h : ∀ col ∈ f, col.1 ∈ ["v_mp", "v_oc", "i_mp", "i_x", "i_xx", "i_sc", "p_mp"]) : ∃ g, scaleCols f v i = .ok g := by
  have got : ∀ (d : PyDict Ser) (k : String) (x : Ser), (k, x) ∈ d → d.get? k ≠ none := by
    intro d k x hm
    induction d with
    | nil => simp at hm
    | cons b d ih =>
      obtain ⟨bk, bx⟩ := b
      by_cases hk : bk = k
      · simp [PyDict.get?, hk]
      · simp only [List.mem_cons, Prod.mk.injEq] at hm
        rcases hm with ⟨e, _⟩ | hm
        · exact absurd e.symm hk
        · simp only [PyDict.get?, hk, if_false]; exact ih hm
  unfold scaleCols
  dsimp only
  split
  · rename_i col hc
    exfalso
    have h1 := List.mem_of_find?_eq_some hc
    have h2 := List.find?_some hc
    simp only [decide_eq_true_eq, Option.isNone_iff_eq_none] at h2
    have h3 := h col h1
    revert h2
    simp only [List.mem_cons, List.not_mem_nil, or_false] at h3
    by_cases hv : col.1 = "v_mp" ∨ col.1 = "v_oc"
    · refine got _ col.1 (fun i => col.2 i * v) ?_
      refine List.mem_append_left _ (List.mem_append_left _ (List.mem_map.mpr ⟨col, List.mem_filter.mpr ⟨h1, by simpa using hv⟩, rfl⟩))
    · by_cases hi : col.1 = "i_mp" ∨ col.1 = "i_x" ∨ col.1 = "i_xx" ∨ col.1 = "i_sc"
      · refine got _ col.1 (fun j => col.2 j * i) ?_
        refine List.mem_append_left _ (List.mem_append_right _ (List.mem_map.mpr ⟨col, List.mem_filter.mpr ⟨h1, by simpa using hi⟩, rfl⟩))
      · refine got _ col.1 (fun j => col.2 j * v * i) ?_
        have hp : col.1 = "p_mp" := by tauto
        exact List.mem_append_right _ (List.mem_map.mpr ⟨col, List.mem_filter.mpr ⟨h1, by simpa using hp⟩, rfl⟩)
  · exact ⟨_, rfl⟩

private theorem diode_ok {pc : PvArr → Fl → Fl → Except PyErr Five} (hc : ∀ a ∈ c.system.arrays, ∀ e t, ∃ o, pc a e t = .ok o)
    (he : Shape c.system x r.effective_irradiance) (ht : Shape c.system x r.cell_temperature) :
    ∃ r', runSinglediode c s pc r = .ok r' := by
  obtain ⟨args, h1, h2⟩ := dcArgs_ok he ht
  unfold runSinglediode
  refine bind_of ⟨args, h1⟩ fun args' e1 => ?_
  obtain rfl := Except.ok.inj (h1.symm.trans e1)
  refine bind_of (collect_of fun z hz => ?_) fun ps _ => bind_of (collect_of fun z hz => ?_) fun fr hfr =>
    bind_of (collect_of fun z hz => ?_) fun _ _ => ⟨_, rfl⟩
  · simp only [List.mem_map] at hz
    obtain ⟨p, hp, rfl⟩ := hz
    exact gather_of fun i => hc p.1 (h2 p hp) _ _
  · simp only [List.mem_map] at hz
    obtain ⟨p, hp, rfl⟩ := hz
    refine bind_of (gather_of fun i => ?_) fun _ _ => ⟨_, rfl⟩
    exact ⟨_, by simp only [singlediode, show pyLower "lambertw" = "lambertw" by decide +kernel, if_true]; rfl⟩
  · simp only [List.mem_map] at hz
    obtain ⟨p, hp, rfl⟩ := hz
    refine scale_ok _ _ _ fun col hcol => ?_
    have m := (List.of_mem_zip (a := p.1) (b := p.2) hp).2
    rw [collect_ok_iff] at hfr
    have m' : Except.ok p.2 ∈ fr.map (Except.ok (ε := PyErr)) := List.mem_map.mpr ⟨_, m, rfl⟩
    rw [← hfr] at m'
    simp only [List.mem_map] at m'
    obtain ⟨q, _, hq⟩ := m'
    obtain ⟨o, _, ho⟩ := bind_ok hq
    have := Except.ok.inj ho
    rw [← this] at hcol
    simp only [diodeFrame, List.mem_cons, List.not_mem_nil, or_false] at hcol
    rcases hcol with h | h | h | h | h | h | h <;> subst h <;> simp

private theorem runDc_ok (A : AblePower c s) (he : Shape c.system x r.effective_irradiance) (ht : Shape c.system x r.cell_temperature) :
    ∃ r', runDc c s r = .ok r' := by
  obtain ⟨m, hm, hc⟩ := A.dc
  obtain ⟨args, h1, h2⟩ := dcArgs_ok he ht
  unfold runDc
  rw [hm]
  cases m with
  | desoto => exact diode_ok (x := x) (fun a ha => hc a ha) he ht
  | cec => exact diode_ok (x := x) (fun a ha => hc a ha) he ht
  | pvsyst => exact diode_ok (x := x) (fun a ha => hc a ha) he ht
  | sapm =>
    simp only
    unfold runSapm
    refine bind_of ⟨args, h1⟩ fun args' e1 => ?_
    obtain rfl := Except.ok.inj (h1.symm.trans e1)
    refine bind_of (collect_of fun z hz => ?_) fun fr hfr => bind_of (collect_of fun z hz => ?_) fun _ _ => ⟨_, rfl⟩
    · simp only [List.mem_map] at hz
      obtain ⟨p, hp, rfl⟩ := hz
      exact bind_of (gather_of fun i => hc p.1 (h2 p hp) _ _) fun _ _ => ⟨_, rfl⟩
    · simp only [List.mem_map] at hz
      obtain ⟨p, hp, rfl⟩ := hz
      refine scale_ok _ _ _ fun col hcol => ?_
      have m := (List.of_mem_zip (a := p.1) (b := p.2) hp).2
      rw [collect_ok_iff] at hfr
      have m' : Except.ok p.2 ∈ fr.map (Except.ok (ε := PyErr)) := List.mem_map.mpr ⟨_, m, rfl⟩
      rw [← hfr] at m'
      simp only [List.mem_map] at m'
      obtain ⟨q, _, hq⟩ := m'
      obtain ⟨o, _, ho⟩ := bind_ok hq
      have := Except.ok.inj ho
      rw [← this] at hcol
      unfold sapmFrame at hcol
      by_cases i1 : (o 0).i_x.isSome = true <;> by_cases i2 : (o 0).i_xx.isSome = true <;>
        simp only [i1, i2, if_true, List.cons_append, List.nil_append, List.append_nil, List.mem_cons, List.not_mem_nil,
          or_false, Bool.false_eq_true, if_false] at hcol <;> (casesm* _ ∨ _) <;> subst_vars <;> simp
  | pvwatts =>
    simp only
    unfold runPvwattsDc
    refine bind_of ⟨args, h1⟩ fun args' e1 => ?_
    obtain rfl := Except.ok.inj (h1.symm.trans e1)
    refine bind_of (collect_of fun z hz => ?_) fun dc _ => bind_of (collect_of fun z hz => ?_) fun sc hsc =>
      bind_of (collect_of fun z hz => ?_) fun _ _ => ⟨_, rfl⟩
    · simp only [List.mem_map] at hz
      obtain ⟨p, hp, rfl⟩ := hz
      exact gather_of fun i => hc p.1 (h2 p hp) _ _
    · simp only [List.mem_map] at hz
      obtain ⟨p, hp, rfl⟩ := hz
      refine scale_ok _ _ _ fun col hcol => ?_
      simp only [List.mem_singleton] at hcol
      subst hcol; simp
    · simp only [List.mem_map] at hz
      obtain ⟨f, hf, rfl⟩ := hz
      rw [collect_ok_iff] at hsc
      have m' : Except.ok f ∈ sc.map (Except.ok (ε := PyErr)) := List.mem_map.mpr ⟨_, hf, rfl⟩
      rw [← hsc] at m'
      simp only [List.mem_map] at m'
      obtain ⟨q, _, hq⟩ := m'
      have := scaleCols_spec (a := q.1) hq "p_mp"
      simp only [PyDict.get?, if_true, Option.map_some] at this
      exact ⟨_, by simp only [argOf, this]; rfl⟩

/-! ### Losses and AC power -/

/-- All DC results are of the kind the model makes. -/
private def Kind (c : Chain) (r : Results) : Prop := ∀ k d, part k r.dc = some d → k < c.system.arrays.length →
  if c.dc = some .pvwatts then ∃ p, d = .series p
  else ∃ f, d = .frame f ∧ ∀ name ∈ ["i_mp", "v_mp", "p_mp"], f.get? name ≠ none

private theorem kind_of_spec {a : PvArr} {e t : Ser} {d : Dc} (h : DcSpec c s a e t d) :
    if c.dc = some .pvwatts then ∃ p, d = .series p
    else ∃ f, d = .frame f ∧ ∀ name ∈ ["i_mp", "v_mp", "p_mp"], f.get? name ≠ none := by
  unfold DcSpec at h
  have fr : ∀ (o : ℕ → SevenPoints), ∀ name ∈ ["i_mp", "v_mp", "p_mp"], (diodeFrame o).get? name ≠ none := by
    intro o name hn
    simp only [List.mem_cons, List.not_mem_nil, or_false] at hn
    rcases hn with rfl | rfl | rfl <;> simp [diodeFrame, PyDict.get?]
  have fs : ∀ (o : ℕ → SapmOut), ∀ name ∈ ["i_mp", "v_mp", "p_mp"], (sapmFrame o).get? name ≠ none := by
    intro o name hn
    simp only [List.mem_cons, List.not_mem_nil, or_false] at hn
    rcases hn with rfl | rfl | rfl <;> simp [sapmFrame, PyDict.get?]
  cases hk : c.dc with
  | none => simp [hk] at h
  | some m =>
    cases m with
    | pvwatts => simp only [hk] at h; obtain ⟨p, q, rfl, _⟩ := h; simp
    | sapm =>
      simp only [hk] at h
      obtain ⟨f, o, rfl, _, h2⟩ := h
      simp only [reduceCtorEq, Option.some.injEq, if_false]
      exact ⟨f, rfl, fun name hn => by rw [h2]; simpa using fs o name hn⟩
    | _ =>
      simp only [hk] at h
      obtain ⟨f, q, o, rfl, _, _, h3⟩ := h
      simp only [reduceCtorEq, Option.some.injEq, if_false]
      exact ⟨f, rfl, fun name hn => by rw [h3]; simpa using fr o name hn⟩

private theorem part_of {α : Type} {sys : System} {x : Input} {v : Option (PerArray α)} (h : Shape sys x v) {k : ℕ} (hk : k < sys.arrays.length) :
    ∃ y, part k v = some y := by
  unfold Shape at h
  split_ifs at h
  · obtain ⟨y, rfl⟩ := h; exact ⟨y, rfl⟩
  · obtain ⟨ys, rfl, hl⟩ := h; exact ⟨ys[k]'(by omega), List.getElem?_eq_getElem _⟩

private theorem cases_shape {α : Type} {sys : System} {x : Input} {v : Option (PerArray α)} (h : Shape sys x v) :
    (∃ y a, v = some (.one y) ∧ sys.arrays = [a]) ∨ ∃ ys, v = some (.tuple ys) ∧ ys.length = sys.arrays.length := by
  unfold Shape at h
  split_ifs at h with hb
  · obtain ⟨y, hy⟩ := h
    obtain ⟨a, ha⟩ := List.length_eq_one_iff.mp hb.2
    exact .inl ⟨y, a, hy, ha⟩
  · exact .inr h

private theorem get_col {f : PyDict Ser} {name : String} (h : f.get? name ≠ none) : ∃ z, (Dc.frame f).col name = .ok z := by
  obtain ⟨z, hz⟩ := Option.ne_none_iff_exists'.mp h
  exact ⟨z, by simp [Dc.col, argOf, hz]⟩

private theorem ohmic_ok (A : AblePower c s) (hd : Shape c.system x r.dc) (hk : Kind c r) : ∃ r', runOhmic c r = .ok r' := by
  unfold runOhmic
  rcases A.ohmic with h | ⟨hn, ho⟩
  · rw [h]; exact ⟨_, rfl⟩
  · have one : ∀ k d, part k r.dc = some d → k < c.system.arrays.length → ∀ o, ∃ v, ohmicOne o d = .ok v := by
      intro k d hp hlt o
      have := hk k d hp hlt
      rw [if_neg hn] at this
      obtain ⟨f, rfl, hf⟩ := this
      unfold ohmicOne
      exact bind_of (get_col (hf "i_mp" (by simp))) fun _ _ => bind_of (get_col (hf "p_mp" (by simp))) fun _ _ => ⟨_, rfl⟩
    cases c.ohmic with
    | no_loss => exact ⟨_, rfl⟩
    | dc_ohms_from_percent =>
      rcases cases_shape hd with ⟨d, a, hv, har⟩ | ⟨ds, hv, hl⟩
      · simp only [hv, need, Except.bind, har]
        obtain ⟨o, h1⟩ := ho a (by rw [har]; simp)
        obtain ⟨v, h2⟩ := one 0 d (by rw [hv]; rfl) (by rw [har]; simp) o
        exact ⟨_, by rw [h1]; simp only [h2]; rfl⟩
      · simp only [hv, need]
        refine bind_of ⟨_, rfl⟩ fun dc hdc => ?_
        obtain rfl := Except.ok.inj hdc
        refine bind_of (collect_of fun z hz => ?_) fun os hos => bind_of (collect_of fun z hz => ?_) fun _ _ => ⟨_, rfl⟩
        · simp only [List.mem_map] at hz
          obtain ⟨a, ha, rfl⟩ := hz
          exact ho a ha
        · simp only [List.mem_map] at hz
          obtain ⟨p, hp, rfl⟩ := hz
          have m := (List.of_mem_zip (a := p.1) (b := p.2) hp).2
          obtain ⟨k, hk'⟩ := List.mem_iff_getElem?.mp m
          exact one k p.2 (by rw [hv]; exact hk') (by rw [← hl]; exact (List.getElem?_eq_some_iff.mp hk').1) _

private theorem losses_ok (A : AblePower c s) (hd : Shape c.system x r.dc) : ∃ r', runLosses c r = .ok r' := by
  unfold runLosses
  rcases A.losses with h | h
  · rw [h]; exact ⟨_, rfl⟩
  · cases c.losses with
    | no_loss => exact ⟨_, rfl⟩
    | pvwatts => exact bind_of h fun _ _ => bind_of (shape_need hd) fun _ _ => ⟨_, rfl⟩

private theorem at_one {sys : System} {a : PvArr} (h : sys.arrays = [a]) (m : String) (p v : Fl) :
    sys.getAc m (.one p) (some (.one v)) = sys.getAc m (.tuple [p]) (some (.tuple [v])) ∧
    sys.getAc m (.one p) none = sys.getAc m (.tuple [p]) none := by
  have e : ∀ y : Fl, validatePerArray sys (.one y) = validatePerArray sys (.tuple [y]) := fun y => by simp [validatePerArray, h]
  constructor <;> simp only [System.getAc, e]

private theorem ac_ok (A : AblePower c s) (hd : Shape c.system x r.dc) (hk : Kind c r) : ∃ r', runAc c r = .ok r' := by
  unfold runAc
  rcases A.ac with ⟨h1, h2, h3⟩ | ⟨h1, h2, h3⟩
  · have pw : ∀ k d, part k r.dc = some d → k < c.system.arrays.length → ∃ p, d.power = .ok p := by
      intro k d hp hlt
      have := hk k d hp hlt
      rw [if_pos h2] at this
      obtain ⟨p, rfl⟩ := this
      exact ⟨p, rfl⟩
    rw [h1]
    rcases cases_shape hd with ⟨d, a, hv, har⟩ | ⟨ds, hv, hl⟩
    · obtain ⟨p, hp⟩ := pw 0 d (by rw [hv]; rfl) (by rw [har]; simp)
      simp only [hv, need, Except.bind, dcPower, hp]
      obtain ⟨g, hg⟩ := gather_of (f := fun i => c.system.getAc "pvwatts" (PerArray.at (.one p) i) none) fun i => by
        simp only [PerArray.at, PerArray.map]
        rw [(at_one har _ _ 0).2]
        exact h3 _ (by rw [har]; simp)
      exact ⟨_, by rw [hg]⟩
    · simp only [hv, need]
      refine bind_of ⟨_, rfl⟩ fun dc hdc => ?_
      obtain rfl := Except.ok.inj hdc
      simp only [dcPower]
      obtain ⟨ps, hps⟩ := collect_of (l := ds.map Dc.power) fun z hz => by
        simp only [List.mem_map] at hz
        obtain ⟨d, hd', rfl⟩ := hz
        obtain ⟨k, hk'⟩ := List.mem_iff_getElem?.mp hd'
        exact pw k d (by rw [hv]; exact hk') (by rw [← hl]; exact (List.getElem?_eq_some_iff.mp hk').1)
      have lps := collect_len hps
      simp only [List.length_map] at lps
      rw [hps]
      simp only [Except.bind]
      obtain ⟨g, hg⟩ := gather_of (f := fun i => c.system.getAc "pvwatts" (PerArray.at (.tuple ps) i) none) fun i => by
        simp only [PerArray.at, PerArray.map]
        exact h3 _ (by simp [lps, hl])
      exact ⟨_, by rw [hg]⟩
  · have cl : ∀ name ∈ ["i_mp", "v_mp", "p_mp"], ∀ k d, part k r.dc = some d → k < c.system.arrays.length → ∃ p, d.col name = .ok p := by
      intro name hn k d hp hlt
      have := hk k d hp hlt
      rw [if_neg h2] at this
      obtain ⟨f, rfl, hf⟩ := this
      exact get_col (hf name hn)
    rw [h1]
    rcases cases_shape hd with ⟨d, a, hv, har⟩ | ⟨ds, hv, hl⟩
    · obtain ⟨p, hp⟩ := cl "p_mp" (by simp) 0 d (by rw [hv]; rfl) (by rw [har]; simp)
      obtain ⟨v, hvm⟩ := cl "v_mp" (by simp) 0 d (by rw [hv]; rfl) (by rw [har]; simp)
      simp only [hv, need, Except.bind, dcCols, hp, hvm]
      obtain ⟨g, hg⟩ := gather_of (f := fun i => c.system.getAc "sandia" (PerArray.at (.one p) i) (some (PerArray.at (.one v) i))) fun i => by
        simp only [PerArray.at, PerArray.map]
        rw [(at_one har _ _ _).1]
        exact h3 _ _ (by rw [har]; simp) (by rw [har]; simp)
      exact ⟨_, by rw [hg]⟩
    · simp only [hv, need]
      refine bind_of ⟨_, rfl⟩ fun dc hdc => ?_
      obtain rfl := Except.ok.inj hdc
      simp only [dcCols]
      have cs : ∀ name ∈ ["i_mp", "v_mp", "p_mp"], ∃ ps, collect (ds.map fun d => d.col name) = .ok ps ∧ ps.length = ds.length := by
        intro name hn
        obtain ⟨ps, hps⟩ := collect_of (l := ds.map fun d => d.col name) fun z hz => by
          simp only [List.mem_map] at hz
          obtain ⟨d, hd', rfl⟩ := hz
          obtain ⟨k, hk'⟩ := List.mem_iff_getElem?.mp hd'
          exact cl name hn k d (by rw [hv]; exact hk') (by rw [← hl]; exact (List.getElem?_eq_some_iff.mp hk').1)
        exact ⟨ps, hps, by simpa using collect_len hps⟩
      obtain ⟨ps, hps, lps⟩ := cs "p_mp" (by simp)
      obtain ⟨vs, hvs, lvs⟩ := cs "v_mp" (by simp)
      rw [hps, hvs]
      simp only [Except.bind]
      obtain ⟨g, hg⟩ := gather_of (f := fun i => c.system.getAc "sandia" (PerArray.at (.tuple ps) i) (some (PerArray.at (.tuple vs) i))) fun i => by
        simp only [PerArray.at, PerArray.map]
        exact h3 _ _ (by simp [lps, hl]) (by simp [lvs, hl])
      exact ⟨_, by rw [hg]⟩

private theorem tail_ok (A : AblePower c s) (hx : Bare x ∨ Matches c.system x)
    (ht : Shape c.system x r.total_irrad) (he : Shape c.system x r.effective_irradiance) (h3 : r.times = some times)
    (h5 : r.weather = some (wrapIf (single c.system x) (PerArray.map buildWeather (toTuple x))))
    (hsi : r.singleton = single c.system x) : ∃ r', runFromEff c s (toTuple x) r = .ok r' := by
  unfold runFromEff
  refine bind_of (temperature_ok A hx ht he h3 h5 hsi) fun r1 e1 => ?_
  obtain ⟨v, rfl, hv, tv⟩ := temperature_spec e1 hx ht he h3 h5 hsi
  refine bind_of (runDc_ok A (x := x) he hv) fun r2 e2 => ?_
  have D := dc_spec (x := x) e2 hsi
  obtain ⟨w, u, rfl, hw, dv⟩ := D
  have k1 : ∀ k d, part k w = some d → k < c.system.arrays.length → if c.dc = some .pvwatts then ∃ p, d = .series p
      else ∃ f, d = .frame f ∧ ∀ name ∈ ["i_mp", "v_mp", "p_mp"], f.get? name ≠ none := by
    intro k d hp hk
    obtain ⟨e, hpe⟩ := part_of he hk
    obtain ⟨t, hpt⟩ := part_of hv hk
    obtain ⟨d', g1, g2⟩ := dv k _ e t (List.getElem?_eq_getElem hk) hpe hpt
    rw [hp] at g1
    obtain rfl := Option.some.inj g1
    exact kind_of_spec g2
  refine bind_of (ohmic_ok A hw k1) fun r3 e3 => ?_
  obtain ⟨w2, u2, rfl, hw2, dv2⟩ := ohmic_spec (x := x) e3 hsi hw
  have k2 : ∀ k d, part k w2 = some d → k < c.system.arrays.length → if c.dc = some .pvwatts then ∃ p, d = .series p
      else ∃ f, d = .frame f ∧ ∀ name ∈ ["i_mp", "v_mp", "p_mp"], f.get? name ≠ none := by
    intro k d hp hk
    obtain ⟨d0, hp0⟩ := part_of hw hk
    obtain ⟨d', g1, g2⟩ := dv2 k _ d0 (List.getElem?_eq_getElem hk) hp0
    rw [hp] at g1
    obtain rfl := Option.some.inj g1
    have := k1 k d0 hp0 hk
    unfold OhmicSpec at g2
    cases ho : c.ohmic with
    | no_loss => simp only [ho] at g2; subst g2; exact this
    | dc_ohms_from_percent =>
      simp only [ho] at g2
      obtain ⟨f, f', i, p, o, rfl, rfl, _, m1, m2, m3, m4⟩ := g2
      by_cases hpw : c.dc = some .pvwatts
      · rw [if_pos hpw] at this; obtain ⟨_, h⟩ := this; simp at h
      · rw [if_neg hpw] at this ⊢
        obtain ⟨_, h, hf⟩ := this
        obtain rfl := Dc.frame.inj h
        refine ⟨f', rfl, fun name hn => ?_⟩
        by_cases hp : name = "p_mp"
        · subst hp; rw [m3]; simp
        · rw [m4 _ hp]; exact hf name hn
  refine bind_of (losses_ok A hw2) fun r4 e4 => ?_
  obtain ⟨w3, f, rfl, hw3, dv3⟩ := losses_spec (x := x) e4 hsi hw2
  refine ac_ok A hw3 ?_
  intro k d hp hk
  obtain ⟨d0, hp0⟩ := part_of hw2 hk
  obtain ⟨d', g1, g2⟩ := dv3 k d0 hp0
  have hp : part k w3 = some d := hp
  rw [hp] at g1
  obtain rfl := Option.some.inj g1
  have := k2 k d0 hp0 hk
  unfold LossSpec at g2
  cases hl : c.losses with
  | no_loss => simp only [hl] at g2; obtain ⟨rfl, _⟩ := g2; exact this
  | pvwatts =>
    simp only [hl] at g2
    obtain ⟨l, _, _, m⟩ := g2
    by_cases hpw : c.dc = some .pvwatts
    · rw [if_pos hpw] at this ⊢
      obtain ⟨p, rfl⟩ := this
      cases d with
      | series q => exact ⟨q, rfl⟩
      | frame _ => simp at m
    · rw [if_neg hpw] at this ⊢
      obtain ⟨g, rfl, hg⟩ := this
      cases d with
      | series q => simp at m
      | frame g' => exact ⟨g', rfl, fun name hn => by rw [m name]; simpa using hg name hn⟩

private theorem check_ok {sys : System} (h : Strict sys x) : checkMultipleInput sys (toTuple x) = .ok () := by
  have tup : ∀ ds : List DF, Matches sys (.tuple ds) → checkMultipleInput sys (.tuple ds) = .ok () := by
    intro ds hm
    have h1 : ds.length = sys.arrays.length := hm.1
    have h2 : allSameIndex ds = true := by
      cases ds with
      | nil => rfl
      | cons d ds =>
        simp only [allSameIndex, List.all_eq_true, decide_eq_true_eq]
        intro e he
        exact hm.2 e (by simp [frames, he]) d (by simp [frames])
    simp [checkMultipleInput, h1, h2]
  cases x with
  | frame d =>
    unfold Strict at h
    rw [if_pos (by simp [Bare])] at h
    simp [toTuple, checkMultipleInput, h]
  | tuple ds =>
    unfold Strict at h
    rw [if_neg (by simp [Bare])] at h
    exact tup ds h
  | list ds =>
    unfold Strict at h
    rw [if_neg (by simp [Bare])] at h
    exact tup ds ⟨h.1, h.2⟩

private theorem verify_ok {names : List String} (h : HasCols x names) : verifyDf (toTuple x) names = .ok () := by
  have key : ∀ d, d ∈ frames x → names.all d.has = true := by
    intro d hd
    simp only [List.all_eq_true]
    intro n hn
    simpa [DF.has, Option.isSome_iff_ne_none] using h d hd n hn
  cases x with
  | frame d => simp only [toTuple, verifyDf, key d (by simp [frames]), if_true]
  | tuple ds => simp only [toTuple, verifyDf]; rw [if_pos (show (ds.all fun df => names.all df.has) = true from List.all_eq_true.mpr key)]
  | list ds => simp only [toTuple, verifyDf]; rw [if_pos (show (ds.all fun df => names.all df.has) = true from List.all_eq_true.mpr key)]

/-- **C100**: `run_model_from_effective_irradiance` succeeds on every well formed input when the models of the chain compute. -/
theorem run_eff_total (A : AblePower c s) (hn : c.system.arrays ≠ []) (hx : Strict c.system x)
    (hc : HasCols x ["effective_irradiance"]) (r : Results) : ∃ q, runModelFromEff c s x r = .ok q := by
  have hw := strict_weak hx
  unfold runModelFromEff
  refine bind_of ⟨_, check_ok hx⟩ fun _ _ => bind_of ⟨_, verify_ok hc⟩ fun _ _ => bind_of (weather_ok hn hw) fun r1 e1 => ?_
  obtain ⟨times, v, rfl, rfl, hidx⟩ := assignWeather_spec e1 hw
  have hcol : ∃ e, tupleFromDfs (toTuple x) "effective_irradiance" = .ok e ∧
      Shape c.system x (some (wrapIf (single c.system x) e)) := by
    have tup : ∀ ds : List DF, (x = .tuple ds ∨ x = .list ds) → ∃ e, tupleFromDfs (.tuple ds) "effective_irradiance" = .ok e ∧
        Shape c.system x (some (wrapIf (single c.system x) e)) := by
      intro ds hd
      obtain ⟨ys, hy⟩ := collect_of (l := ds.map fun d => d.col "effective_irradiance") (by
        intro z hz
        simp only [List.mem_map] at hz
        obtain ⟨d, hd', rfl⟩ := hz
        exact col_of (hc d (by rcases hd with rfl | rfl <;> exact hd') _ (by simp)))
      refine ⟨.tuple ys, by simp only [tupleFromDfs, hy, Except.bind], ?_⟩
      refine tuple_shape ?_ ?_
      · rw [collect_len hy, List.length_map]; exact len_of hd hw
      · rcases hd with rfl | rfl <;> simp [Bare]
    cases x with
    | frame d =>
      obtain ⟨z, hz⟩ := col_of (hc d (by simp [frames]) "effective_irradiance" (by simp))
      refine ⟨.one z, by simp only [toTuple, tupleFromDfs, hz, Except.bind], ?_⟩
      unfold Strict at hx
      rw [if_pos (by simp [Bare])] at hx
      simp [Shape, Bare, hx, single, isTuple, wrapIf]
    | tuple ds => exact tup ds (.inl rfl)
    | list ds => exact tup ds (.inr rfl)
  obtain ⟨e, he, hs⟩ := hcol
  refine bind_of ⟨e, he⟩ fun e' ee => ?_
  obtain rfl := Except.ok.inj (he.symm.trans ee)
  exact tail_ok (times := times) A hw (input_shape (fun d => d.select poaKeys) hx) hs rfl rfl rfl

/-! ### Optics -/

private theorem perOne_ok {α β : Type} {sys : System} {v : PerArray α} {wide : Bool} {f : PvArr → α → Except PyErr β}
    (h : ∃ ys, validatePerArray sys v wide = .ok ys) (hf : ∀ a ∈ sys.arrays, ∀ z, ∃ y, f a z = .ok y) :
    ∃ y, perOne sys v wide f = .ok y := by
  unfold perOne
  refine bind_of h fun ys _ => bind_of (unwrapped_of fun z hz => ?_) fun _ _ => ⟨_, rfl⟩
  simp only [List.mem_map] at hz
  obtain ⟨p, hp, rfl⟩ := hz
  exact hf p.1 (zip_fst hp) _

private theorem aoi_ok (A : AbleOptics c s x) (ha : Shape c.system x r.aoi) : ∃ r', runAoi c s r = .ok r' := by
  unfold runAoi
  have key : c.aoi ≠ .no_loss → ∀ m, m = c.aoi → ∃ r', ((need r.aoi).bind fun aoi =>
      (perOne c.system aoi false fun a x => gather fun i => a.getIam s.interpolator (x i) m.name).bind fun v =>
        Except.ok { r with aoi_modifier := some (wrapIf r.singleton v) } : Except PyErr Results) = .ok r' := by
    intro hne m hm
    subst hm
    refine bind_of (shape_need ha) fun v hv => bind_of (perOne_ok (validate_of (need_shape ha hv) false) ?_) fun _ _ => ⟨_, rfl⟩
    intro a haa z
    exact gather_of fun i => (A.aoi.resolve_left hne) a haa _
  cases hm : c.aoi with
  | no_loss => exact ⟨_, rfl⟩
  | _ => exact key (by simp [hm]) _ hm.symm

private theorem spectral_ok (A : AbleOptics c s x) (hx : Bare x ∨ Matches c.system x) {am : AirMass} (h1 : r.airmass = some am)
    (h5 : r.weather = some (wrapIf (single c.system x) (PerArray.map buildWeather (toTuple x)))) :
    ∃ r', runSpectral c r = .ok r' := by
  unfold runSpectral
  have B := A.spectral
  cases hs : c.spectral with
  | no_loss => exact ⟨_, rfl⟩
  | sapm =>
    simp only [hs] at B
    exact bind_of (need_of h1) fun am' _ => bind_of (perOne_ok (validate_bare ()) fun a ha z => gather_of fun i => B a ha _) fun _ _ => ⟨_, rfl⟩
  | first_solar =>
    simp only [hs] at B
    refine bind_of (need_of h5) fun w hw => ?_
    obtain ⟨pw, hpw, hv⟩ := tuple_ok (name := "precipitable_water") hx h5 hw fun d hd => by
      rw [weather_get _ _ (by simp)]; exact B.1 d hd _ (by simp)
    refine bind_of ⟨pw, hpw⟩ fun pw' e => ?_
    obtain rfl := Except.ok.inj (hpw.symm.trans e)
    exact bind_of (need_of h1) fun am' _ => bind_of (perOne_ok hv fun a ha z => gather_of fun i => B.2 a ha _ _) fun _ _ => ⟨_, rfl⟩

private theorem effIrrad_ok {a : PvArr} {ti : DF} (hf : ∃ fd, fdOf a = .ok fd)
    (h : ∀ n ∈ ["poa_direct", "poa_diffuse"], ti.cols.get? n ≠ none) (sm iam : Ser) : ∃ e, effIrrad a ti sm iam = .ok e := by
  unfold effIrrad
  exact bind_of hf fun _ _ => bind_of (col_of (h _ (by simp))) fun _ _ => bind_of (col_of (h _ (by simp))) fun _ _ => ⟨_, rfl⟩

private theorem eff_ok (A : AbleOptics c s x) (ht : Shape c.system x r.total_irrad) (hs : Shape c.system x r.spectral_modifier)
    (hm : Shape c.system x r.aoi_modifier) (hc : ∀ k ti, k < c.system.arrays.length → part k r.total_irrad = some ti →
      ∀ n ∈ ["poa_direct", "poa_diffuse"], ti.cols.get? n ≠ none) : ∃ r', effectiveIrradianceModel c r = .ok r' := by
  unfold effectiveIrradianceModel
  refine bind_of (shape_need ht) fun ti hti => bind_of (shape_need hs) fun sm hsm => bind_of (shape_need hm) fun im him => ?_
  have ht' := need_shape ht hti
  have hs' := need_shape hs hsm
  have hm' := need_shape hm him
  rw [need_ok hti] at hc
  by_cases hb : Bare x ∧ c.system.arrays.length = 1
  · unfold Shape at ht' hs' hm'
    rw [if_pos hb] at ht' hs' hm'
    obtain ⟨t, h1⟩ := ht'; obtain ⟨u, h2⟩ := hs'; obtain ⟨v, h3⟩ := hm'
    obtain rfl := Option.some.inj h1; obtain rfl := Option.some.inj h2; obtain rfl := Option.some.inj h3
    obtain ⟨a, har⟩ := List.length_eq_one_iff.mp hb.2
    simp only [har]
    exact bind_of (effIrrad_ok (A.fd a (by rw [har]; simp)) (hc 0 t (by rw [har]; simp) rfl) _ _) fun _ _ => ⟨_, rfl⟩
  · unfold Shape at ht' hs' hm'
    rw [if_neg hb] at ht' hs' hm'
    obtain ⟨t, h1, l1⟩ := ht'; obtain ⟨u, h2, l2⟩ := hs'; obtain ⟨v, h3, l3⟩ := hm'
    obtain rfl := Option.some.inj h1; obtain rfl := Option.some.inj h2; obtain rfl := Option.some.inj h3
    refine bind_of ⟨u, rfl⟩ fun u' _ => bind_of ⟨v, rfl⟩ fun v' _ => bind_of (collect_of fun z hz => ?_) fun _ _ => ⟨_, rfl⟩
    simp only [List.mem_map] at hz
    obtain ⟨p, hp, rfl⟩ := hz
    have m1 := (List.of_mem_zip (a := p.1) (b := p.2) hp).2
    have m2 := (List.of_mem_zip (a := p.2.1) (b := p.2.2) m1).1
    obtain ⟨k, hk⟩ := List.mem_iff_getElem?.mp m2
    exact effIrrad_ok (A.fd p.1 (zip_fst hp)) (hc k p.2.1 (by rw [← l1]; exact (List.getElem?_eq_some_iff.mp hk).1) hk) _ _

private theorem optics_ok (A : AbleOptics c s x) (hx : Bare x ∨ Matches c.system x) (hsi : r.singleton = single c.system x)
    {am : AirMass} (h2 : r.airmass = some am)
    (h5 : r.weather = some (wrapIf (single c.system x) (PerArray.map buildWeather (toTuple x))))
    (ht : Shape c.system x r.total_irrad) (ha : Shape c.system x r.aoi)
    (hc : ∀ k ti, k < c.system.arrays.length → part k r.total_irrad = some ti →
      ∀ n ∈ ["poa_direct", "poa_diffuse"], ti.cols.get? n ≠ none) : ∃ r', runOptics c s r = .ok r' := by
  unfold runOptics
  refine bind_of (aoi_ok A ha) fun r1 e1 => ?_
  obtain ⟨v1, rfl, s1, _⟩ := aoi_spec (x := x) e1 hsi
  refine bind_of (spectral_ok A hx h2 h5) fun r2 e2 => ?_
  obtain ⟨v2, rfl, s2, _⟩ := spectral_spec (x := x) e2 hx h2 h5 hsi
  exact eff_ok A ht s2 s1 hc

private theorem solarPos_ok (A : AbleOptics c s x) (hn : c.system.arrays ≠ []) (hx : Bare x ∨ Matches c.system x) (h3 : r.times = some times) :
    ∃ r', prepSolarPos c s (toTuple x) r = .ok r' := by
  unfold prepSolarPos
  have hf : ∃ d, firstFrame (toTuple x) = .ok d := by
    have tup : ∀ ds : List DF, ds.length = c.system.arrays.length → ∃ d, firstFrame (.tuple ds) = .ok d := by
      intro ds hl
      cases ds with
      | nil => simp at hl; exact absurd (List.length_eq_zero_iff.mp hl.symm) hn
      | cons d ds => exact ⟨d, rfl⟩
    cases x with
    | frame d => exact ⟨d, rfl⟩
    | tuple ds => exact tup ds (len_of (.inl rfl) hx)
    | list ds => exact tup ds (len_of (.inr rfl) hx)
  exact bind_of hf fun _ _ => bind_of (need_of h3) fun _ _ => bind_of (A.sun _ _ _) fun _ _ => ⟨_, rfl⟩

private theorem airmass_ok (A : AbleOptics c s x) {sp : SolPos} (h : r.solar_position = some sp) : ∃ r', prepAirmass c s r = .ok r' := by
  unfold prepAirmass
  exact bind_of (need_of h) fun _ _ => bind_of (gather_of fun i => A.airmass _ _) fun _ _ => ⟨_, rfl⟩

private theorem fixed_ok {sp : SolPos} (h : r.solar_position = some sp) : ∃ r', prepFixed c r = .ok r' := by
  unfold prepFixed
  refine bind_of (need_of h) fun _ _ => bind_of (unwrapped_of fun z hz => ?_) fun _ _ => ⟨_, rfl⟩
  simp only [List.mem_map] at hz
  obtain ⟨a, _, rfl⟩ := hz
  exact ⟨_, rfl⟩

/-- **C100**: `run_model_from_poa`. -/
theorem run_poa_total (A : AblePower c s) (B : AbleOptics c s x) (hn : c.system.arrays ≠ []) (hx : Strict c.system x)
    (hc : HasCols x ["poa_global", "poa_direct", "poa_diffuse"]) (r : Results) : ∃ q, runModelFromPoa c s x r = .ok q := by
  have hw := strict_weak hx
  unfold runModelFromPoa
  refine bind_of ?_ fun r1 e1 => ?_
  · unfold prepareInputsFromPoa
    refine bind_of ⟨_, check_ok hx⟩ fun _ _ => bind_of (weather_ok hn hw) fun r1 e1 => bind_of ⟨_, verify_ok hc⟩ fun _ _ => ?_
    obtain ⟨times, v, rfl, rfl, hidx⟩ := assignWeather_spec e1 hw
    refine bind_of (solarPos_ok (times := times) B hn hw rfl) fun r2 e2 => ?_
    obtain ⟨sp, _, _, rfl, _⟩ := solarPos_spec e2
    refine bind_of (airmass_ok B rfl) fun r3 e3 => ?_
    obtain ⟨am, rfl, _⟩ := airmass_spec e3 rfl
    exact fixed_ok rfl
  · unfold prepareInputsFromPoa at e1
    obtain ⟨_, _, e1⟩ := bind_ok e1
    obtain ⟨a1, w1, e1⟩ := bind_ok e1
    obtain ⟨_, _, e1⟩ := bind_ok e1
    obtain ⟨a2, w2, e1⟩ := bind_ok e1
    obtain ⟨a3, w3, e1⟩ := bind_ok e1
    obtain ⟨times, v, rfl, rfl, hidx⟩ := assignWeather_spec w1 hw
    obtain ⟨sp, times', d0, rfl, ht', hd0, hsp⟩ := solarPos_spec w2
    obtain ⟨am, rfl, ham⟩ := airmass_spec w3 rfl
    obtain ⟨va, rfl, sa, pa⟩ := fixed_spec (x := x) e1 rfl rfl
    have st := input_shape (fun d => d.select poaKeys) hx
    refine bind_of (optics_ok B hw rfl rfl rfl st sa ?_) fun r2 e2 => ?_
    · intro k ti _ hp n hnn
      have hp : part k (some (wrapIf (single c.system x) (PerArray.map (fun d => d.select poaKeys) (toTuple x)))) = some ti := hp
      rw [part_input] at hp
      obtain ⟨w, hw1, rfl⟩ := Option.map_eq_some_iff.mp hp
      have hm : n ∈ ["poa_global", "poa_direct", "poa_diffuse"] := by simp at hnn ⊢; tauto
      rw [poa_get _ _ hm]
      exact hc w (frame_mem hw1) n hm
    · obtain ⟨m1, m2, m3, rfl, s1, s2, s3, _⟩ := optics_spec (sp := sp) (am := am) e2 hw rfl rfl rfl st pa
      exact tail_ok (times := times) A hw st s3 rfl rfl rfl

private theorem check_weak {sys : System} (h : Bare x ∨ Matches sys x) : checkMultipleInput sys (toTuple x) false = .ok () := by
  by_cases hb : Bare x
  · cases x with
    | frame d => simp [toTuple, checkMultipleInput]
    | tuple ds => simp [Bare] at hb
    | list ds => simp [Bare] at hb
  · have hm := h.resolve_left hb
    have := check_ok (sys := sys) (x := x) (by unfold Strict; rw [if_neg hb]; exact hm)
    cases x with
    | frame d => simp [Bare] at hb
    | tuple ds => exact this
    | list ds => exact this

private theorem irradiance_ok (P : AblePoa c s) (hx : Bare x ∨ Matches c.system x) (hc : HasCols x ["ghi", "dni", "dhi"])
    {sp : SolPos} {am : AirMass} {al : PerArray Ser} (h1 : r.solar_position = some sp) (h2 : r.airmass = some am) (h3 : r.times = some times)
    (h4 : r.albedo = some al) (h6 : ∃ ys, validatePerArray c.system al true = .ok ys)
    (h5 : r.weather = some (wrapIf (single c.system x) (PerArray.map buildWeather (toTuple x)))) :
    ∃ r', systemIrradiance c s r = .ok r' := by
  unfold systemIrradiance
  refine bind_of (need_of h1) fun _ _ => bind_of (need_of h5) fun w hw => bind_of (need_of h3) fun _ _ => ?_
  have col : ∀ n ∈ ["dni", "ghi", "dhi"], ∃ v, tupleFromDfs w n = .ok v ∧ ∃ ys, validatePerArray c.system v true = .ok ys := by
    intro n hn
    refine tuple_ok hx h5 hw fun d hd => ?_
    rw [weather_get _ _ (by simp at hn ⊢; tauto)]
    exact hc d hd n (by simp at hn ⊢; tauto)
  obtain ⟨v1, t1, u1⟩ := col "dni" (by simp)
  obtain ⟨v2, t2, u2⟩ := col "ghi" (by simp)
  obtain ⟨v3, t3, u3⟩ := col "dhi" (by simp)
  refine bind_of ⟨v1, t1⟩ fun a1 e1 => bind_of ⟨v2, t2⟩ fun a2 e2 => bind_of ⟨v3, t3⟩ fun a3 e3 => ?_
  obtain rfl := Except.ok.inj (t1.symm.trans e1)
  obtain rfl := Except.ok.inj (t2.symm.trans e2)
  obtain rfl := Except.ok.inj (t3.symm.trans e3)
  refine bind_of (need_of h4) fun al' hal => bind_of (need_of h2) fun am' _ => ?_
  obtain rfl := need_eq hal h4
  refine bind_of u1 fun _ _ => bind_of u2 fun _ _ => bind_of u3 fun _ _ => bind_of h6 fun _ _ =>
    bind_of (unwrapped_of fun z hz => ?_) fun _ _ => ⟨_, rfl⟩
  simp only [List.mem_map] at hz
  obtain ⟨p, hp, rfl⟩ := hz
  unfold arrayIrradiance
  exact bind_of (gather_of fun i => P p.1 (zip_fst hp) _ _ _ _ _ _ _ _) fun _ _ => ⟨_, rfl⟩

private theorem albedo_valid {b : Results} (hx : Bare x ∨ Matches c.system x) (hb : prepAlbedo c (toTuple x) r = b)
    (hsi : r.singleton = single c.system x) : ∃ al, b = { r with albedo := some al } ∧ ∃ ys, validatePerArray c.system al true = .ok ys := by
  subst hb
  refine ⟨_, rfl, ?_⟩
  rw [hsi]
  have own : ∃ ys, validatePerArray c.system (wrapIf (single c.system x) (.tuple (c.system.arrays.map fun a => fun (_ : ℕ) => a.albedo))) true =
      .ok ys := ⟨c.system.arrays.map fun a => fun (_ : ℕ) => a.albedo, by simp [wrapIf, validatePerArray]⟩
  cases x with
  | frame d =>
    cases hd : tupleFromDfs (toTuple (.frame d)) "albedo" with
    | error e => simpa only [hd] using own
    | ok v =>
      simp only
      obtain ⟨z, z1, z2⟩ := bind_ok hd
      obtain rfl := Except.ok.inj z2
      simp only [wrapIf, single, isTuple, Bool.and_false, Bool.false_eq_true, if_false]
      exact validate_bare z
  | tuple ds =>
    cases hd : tupleFromDfs (toTuple (.tuple ds)) "albedo" with
    | error e => simpa only [hd] using own
    | ok v =>
      simp only
      obtain ⟨z, z1, z2⟩ := bind_ok hd
      obtain rfl := Except.ok.inj z2
      have := collect_len z1
      rw [List.length_map, len_of (.inl rfl) hx] at this
      exact ⟨z, by simp [wrapIf, validatePerArray, this]⟩
  | list ds =>
    cases hd : tupleFromDfs (toTuple (.list ds)) "albedo" with
    | error e => simpa only [hd] using own
    | ok v =>
      simp only
      obtain ⟨z, z1, z2⟩ := bind_ok hd
      obtain rfl := Except.ok.inj z2
      have := collect_len z1
      rw [List.length_map, len_of (.inr rfl) hx] at this
      exact ⟨z, by simp [wrapIf, validatePerArray, this]⟩

/-- **C100**: `run_model`. -/
theorem run_model_total (A : AblePower c s) (B : AbleOptics c s x) (P : AblePoa c s) (hn : c.system.arrays ≠ [])
    (hx : Bare x ∨ Matches c.system x) (hc : HasCols x ["ghi", "dni", "dhi"]) (r : Results) : ∃ q, runModel c s x r = .ok q := by
  unfold runModel
  refine bind_of ?_ fun r1 e1 => ?_
  · unfold prepareInputs
    refine bind_of ⟨_, check_weak hx⟩ fun _ _ => bind_of ⟨_, verify_ok hc⟩ fun _ _ => bind_of (weather_ok hn hx) fun r1 e1 => ?_
    obtain ⟨times, v, rfl, rfl, hidx⟩ := assignWeather_spec e1 hx
    refine bind_of (solarPos_ok (times := times) B hn hx rfl) fun r2 e2 => ?_
    obtain ⟨sp, _, _, rfl, _⟩ := solarPos_spec e2
    refine bind_of (airmass_ok B rfl) fun r3 e3 => ?_
    obtain ⟨am, rfl, _⟩ := airmass_spec e3 rfl
    generalize hb : prepAlbedo c (toTuple x) _ = b
    obtain ⟨al, rfl, hal⟩ := albedo_valid hx hb rfl
    refine bind_of (fixed_ok rfl) fun r4 e4 => ?_
    obtain ⟨va, rfl, sa, pa⟩ := fixed_spec (x := x) e4 rfl rfl
    exact irradiance_ok (times := times) P hx hc rfl rfl rfl rfl hal rfl
  · unfold prepareInputs at e1
    obtain ⟨_, _, e1⟩ := bind_ok e1
    obtain ⟨_, _, e1⟩ := bind_ok e1
    obtain ⟨a1, w1, e1⟩ := bind_ok e1
    obtain ⟨a2, w2, e1⟩ := bind_ok e1
    obtain ⟨a3, w3, e1⟩ := bind_ok e1
    obtain ⟨a4, w4, e1⟩ := bind_ok e1
    obtain ⟨times, v, rfl, rfl, hidx⟩ := assignWeather_spec w1 hx
    obtain ⟨sp, times', d0, rfl, ht', hd0, hsp⟩ := solarPos_spec w2
    obtain ⟨am, rfl, ham⟩ := airmass_spec w3 rfl
    generalize hb : prepAlbedo c (toTuple x) _ = b at w4
    obtain ⟨al, hal, hal2⟩ := albedo_spec' hb rfl
    subst hal
    clear hb
    obtain ⟨va, rfl, sa, pa⟩ := fixed_spec (x := x) w4 rfl rfl
    obtain ⟨vt, rfl, st, pt⟩ := irradiance_spec (x := x) (times := times) e1 hx rfl rfl rfl rfl rfl hal2 rfl
    refine bind_of (optics_ok B hx rfl rfl rfl st sa ?_) fun r2 e2 => ?_
    · intro k ti hk hp n hnn
      obtain ⟨w, ti', g1, g2, g3⟩ := pt k _ (List.getElem?_eq_getElem hk)
      have hp : part k vt = some ti := hp
      rw [hp] at g2
      obtain rfl := Option.some.inj g2
      obtain ⟨_, _, _, _, _, _, p, rfl, _⟩ := g3.columns
      simp only [List.mem_cons, List.not_mem_nil, or_false] at hnn
      rcases hnn with rfl | rfl <;> simp [poaFrame, PyDict.get?]
    · obtain ⟨m1, m2, m3, rfl, s1, s2, s3, _⟩ := optics_spec (sp := sp) (am := am) e2 hx rfl rfl rfl st pa
      exact tail_ok (times := times) A hx st s3 rfl rfl rfl

/-! ### The PVWatts chain -/

private theorem entry_ex {d : PyDict PVal} {k : String} (h : d.get? k ≠ none) (hn : Numeric d k) : ∃ x, entry d k = some x := by
  cases hd : d.get? k with
  | none => exact absurd hd h
  | some v =>
    obtain ⟨x, rfl⟩ := hn v hd
    exact ⟨x, by simp [entry, hd]⟩

/-- The parameters of a PVWatts system: numbers, with an inverter rating. -/
structure PvwattsData (sys : System) : Prop where
  arrays : sys.arrays ≠ []
  module : ∀ a ∈ sys.arrays, ∀ k, Numeric a.module_parameters k ∧ Numeric a.temperature_model_parameters k
  rating : sys.inverter_parameters.get? "pdc0" ≠ none
  inverter : ∀ k, Numeric sys.inverter_parameters k
  losses : ∀ k, Numeric sys.losses_parameters k

/-- A PVWatts chain can compute the power. -/
theorem pvwatts_able {sys : System} {c : Chain} (D : PvwattsData sys) (h : withPvwatts sys {} = .ok c) (s : Site) :
    AblePower c s := by
  obtain ⟨h1, h2, rfl⟩ := (pvwatts_preset sys c).mp h
  have en : ∀ a ∈ sys.arrays, ∀ k ∈ ["a", "b", "deltaT"], ∃ x, entry a.temperature_model_parameters k = some x :=
    fun a ha k hk => entry_ex (h2 a ha k hk) (D.module a ha k).2
  refine ⟨fun a ha w _ => ?_, fun _ a ha => ?_, ⟨.pvwatts, rfl, ?_⟩, .inl rfl, .inr ⟨_, losses_value sys fun k _ => D.losses k⟩,
    .inl ⟨rfl, rfl, fun ps hl => ?_⟩⟩
  · obtain ⟨x, hx⟩ := en a ha "a" (by simp)
    obtain ⟨y, hy⟩ := en a ha "b" (by simp)
    obtain ⟨z, hz⟩ := en a ha "deltaT" (by simp)
    exact ⟨_, temp_sapm s.sigma a w hx hy hz (D.module a ha _).2⟩
  · obtain ⟨z, hz⟩ := en a ha "deltaT" (by simp)
    exact ⟨z, getNum_of hz⟩
  · have l1 : pyLower "pvwatts" = "pvwatts" := by decide +kernel
    refine dc_accepted_computes sys (some "pvwatts") .pvwatts ?_ fun a ha k => (D.module a ha k).1
    have := dc_named_model sys none "pvwatts" .pvwatts l1
    have hr := (dc_named_accepted sys none "pvwatts").mpr ⟨_, by rw [l1]; rfl, h1⟩
    cases hh : assignDc sys none (some "pvwatts") with
    | mk at_ ra => simp_all
  · obtain ⟨x, hx⟩ := entry_ex D.rating (D.inverter _)
    exact ⟨_, ac_pvwatts sys (m := "pvwatts") (by decide +kernel) D.arrays (p := .tuple ps) (ps := ps) ⟨hl, rfl⟩ hx (D.inverter _)
      (D.inverter _) none⟩

private theorem airmass_kasten (alt z a : Fl) : ∃ am, Location.getAirmass alt z a "kastenyoung1989" = .ok am := by
  have e : pyLower "kastenyoung1989" = "kastenyoung1989" := by decide +kernel
  simp [Location.getAirmass, Atmosphere.apparentZenithModels, Atmosphere.relativeAirmass, Atmosphere.airmassFormula, e, bind,
    Except.bind, pure, Except.pure]

private theorem fd_ok {a : PvArr} (h : Numeric a.module_parameters "FD") : ∃ fd, fdOf a = .ok fd := by
  unfold fdOf
  cases hd : a.module_parameters.get? "FD" with
  | none => exact ⟨1, rfl⟩
  | some v =>
    obtain ⟨z, rfl⟩ := h v hd
    exact ⟨z, rfl⟩

/-- A PVWatts chain can compute the optics, provided the solar position can be computed. -/
theorem pvwatts_optics {sys : System} {c : Chain} {s : Site} {x : Input} (D : PvwattsData sys) (h : withPvwatts sys {} = .ok c)
    (sun : ∀ times p t, ∃ sp, s.solarPosition times c.solar_position_method p t = .ok sp) : AbleOptics c s x := by
  obtain ⟨h1, h2, rfl⟩ := (pvwatts_preset sys c).mp h
  refine ⟨sun, airmass_kasten s.altitude, .inr fun a ha v => ?_, trivial, fun a ha => fd_ok (D.module a ha "FD").1⟩
  exact ⟨_, (iam_models a s.interpolator v "physical").2.1 (by decide +kernel) fun k _ => (D.module a ha k).1⟩

/-- A PVWatts chain can transpose irradiance, provided the default Perez coefficients are there. -/
theorem pvwatts_poa {sys : System} {c : Chain} {s : Site} (h : withPvwatts sys {} = .ok c)
    (tab : s.tb.perezTable "allsitescomposite1990" ≠ none) : AblePoa c s := by
  obtain ⟨h1, h2, rfl⟩ := (pvwatts_preset sys c).mp h
  intro a ha e z az dni ghi dhi am al
  have e : pyLower "perez" = "perez" := by decide +kernel
  obtain ⟨t, ht⟩ := Option.ne_none_iff_exists'.mp tab
  simp [PvArr.getIrradiance, Irradiance.getTotalIrradiance, Irradiance.getSkyDiffuse, e, ht, Irradiance.groundDiffuse, bind,
    Except.bind, pure, Except.pure]

/-- **C100**: a chain built by plain `with_pvwatts` from numeric parameters never raises on well formed weather, provided the
solar position can be computed and the default Perez coefficients are there. -/
theorem pvwatts_chain_runs {sys : System} {c : Chain} {s : Site} {x : Input} (D : PvwattsData sys) (h : withPvwatts sys {} = .ok c)
    (sun : ∀ times p t, ∃ sp, s.solarPosition times c.solar_position_method p t = .ok sp) (tab : s.tb.perezTable "allsitescomposite1990" ≠ none)
    (hx : Bare x ∨ Matches sys x) (hc : HasCols x ["ghi", "dni", "dhi"]) (r : Results) : ∃ q, runModel c s x r = .ok q := by
  have hs : c.system = sys := by rw [((pvwatts_preset sys c).mp h).2.2]
  exact run_model_total (pvwatts_able D h s) (pvwatts_optics D h sun) (pvwatts_poa h tab) (by rw [hs]; exact D.arrays)
    (by rw [hs]; exact hx) hc r

/-! ### The SAPM chain -/

/-- The parameters of a SAPM system: numbers, with the coefficients of the spectral, incidence-angle and inverter models. -/
structure SapmData (sys : System) : Prop where
  arrays : sys.arrays ≠ []
  module : ∀ a ∈ sys.arrays, ∀ k, Numeric a.module_parameters k ∧ Numeric a.temperature_model_parameters k
  optical : ∀ a ∈ sys.arrays, ∀ k ∈ ["A4", "A3", "A2", "A1", "A0", "B5", "B4", "B3", "B2", "B1", "B0"], a.module_parameters.get? k ≠ none
  inverter : ∃ q, SandiaDict sys.inverter_parameters q

/-- A SAPM chain can compute the power. -/
theorem sapm_able {sys : System} {c : Chain} (D : SapmData sys) (h : withSapm sys {} = .ok c) (s : Site) : AblePower c s := by
  obtain ⟨h1, h2, rfl⟩ := (sapm_preset sys c).mp h
  have en : ∀ a ∈ sys.arrays, ∀ k ∈ ["a", "b", "deltaT"], ∃ x, entry a.temperature_model_parameters k = some x :=
    fun a ha k hk => entry_ex (h2 a ha k hk) (D.module a ha k).2
  refine ⟨fun a ha w _ => ?_, fun _ a ha => ?_, ⟨.sapm, rfl, ?_⟩, .inl rfl, .inl rfl, .inr ⟨rfl, by simp, fun ps vs hp hv => ?_⟩⟩
  · obtain ⟨x, hx⟩ := en a ha "a" (by simp)
    obtain ⟨y, hy⟩ := en a ha "b" (by simp)
    obtain ⟨z, hz⟩ := en a ha "deltaT" (by simp)
    exact ⟨_, temp_sapm s.sigma a w hx hy hz (D.module a ha _).2⟩
  · obtain ⟨z, hz⟩ := en a ha "deltaT" (by simp)
    exact ⟨z, getNum_of hz⟩
  · have l1 : pyLower "sapm" = "sapm" := by decide +kernel
    refine dc_accepted_computes sys (some "sapm") .sapm ?_ fun a ha k => (D.module a ha k).1
    have := dc_named_model sys none "sapm" .sapm l1
    have hr := (dc_named_accepted sys none "sapm").mpr ⟨_, by rw [l1]; rfl, h1⟩
    cases hh : assignDc sys none (some "sapm") with
    | mk at_ ra => simp_all
  · obtain ⟨q, hq⟩ := D.inverter
    have l : pyLower "sandia" = "sandia" := by decide +kernel
    dsimp only at hp hv
    rcases Nat.lt_or_ge 1 sys.arrays.length with hl | hl
    · rw [ac_sandia_many sys l hl hq hp hv, Inverter.sandiaMulti, if_neg (by rw [hp, hv]; simp)]
      exact ⟨_, rfl⟩
    · have h0 := List.length_pos_iff.mpr D.arrays
      have h1 : sys.arrays.length = 1 := by omega
      rw [h1] at hp hv
      match ps, vs, hp, hv with
      | [x], [y], _, _ => exact ⟨_, ac_sandia_one sys l h1 hq (p := .tuple [x]) (v := .tuple [y]) ⟨rfl, rfl⟩ ⟨rfl, rfl⟩⟩

/-- A SAPM chain can compute the optics. -/
theorem sapm_optics {sys : System} {c : Chain} {s : Site} {x : Input} (D : SapmData sys) (h : withSapm sys {} = .ok c)
    (sun : ∀ times p t, ∃ sp, s.solarPosition times c.solar_position_method p t = .ok sp) : AbleOptics c s x := by
  obtain ⟨h1, h2, rfl⟩ := (sapm_preset sys c).mp h
  have en : ∀ a ∈ sys.arrays, ∀ k ∈ ["A4", "A3", "A2", "A1", "A0", "B5", "B4", "B3", "B2", "B1", "B0"],
      ∃ x, entry a.module_parameters k = some x := fun a ha k hk => entry_ex (D.optical a ha k hk) (D.module a ha k).1
  refine ⟨sun, airmass_kasten s.altitude, .inr fun a ha v => ?_, fun a ha v => ?_, fun a ha => fd_ok (D.module a ha "FD").1⟩
  · obtain ⟨b0, e0⟩ := en a ha "B0" (by simp)
    obtain ⟨b1, e1⟩ := en a ha "B1" (by simp)
    obtain ⟨b2, e2⟩ := en a ha "B2" (by simp)
    obtain ⟨b3, e3⟩ := en a ha "B3" (by simp)
    obtain ⟨b4, e4⟩ := en a ha "B4" (by simp)
    obtain ⟨b5, e5⟩ := en a ha "B5" (by simp)
    exact ⟨_, (iam_models a s.interpolator v "sapm").2.2.2.2.1 (by decide +kernel) _ _ _ _ _ _ e0 e1 e2 e3 e4 e5⟩
  · obtain ⟨b0, e0⟩ := en a ha "A0" (by simp)
    obtain ⟨b1, e1⟩ := en a ha "A1" (by simp)
    obtain ⟨b2, e2⟩ := en a ha "A2" (by simp)
    obtain ⟨b3, e3⟩ := en a ha "A3" (by simp)
    obtain ⟨b4, e4⟩ := en a ha "A4" (by simp)
    rw [sapmSpectralOf, getNums_of (xs := [b4, b3, b2, b1, b0]) (by simp [e0, e1, e2, e3, e4])]
    exact ⟨_, rfl⟩

/-- **C100**: a chain built by plain `with_sapm` from numeric parameters never raises on well formed weather, provided the
solar position can be computed. -/
theorem sapm_chain_runs {sys : System} {c : Chain} {s : Site} {x : Input} (D : SapmData sys) (h : withSapm sys {} = .ok c)
    (sun : ∀ times p t, ∃ sp, s.solarPosition times c.solar_position_method p t = .ok sp)
    (hx : Bare x ∨ Matches sys x) (hc : HasCols x ["ghi", "dni", "dhi"]) (r : Results) : ∃ q, runModel c s x r = .ok q := by
  have hs := ((sapm_preset sys c).mp h).2.2
  refine run_model_total (sapm_able D h s) (sapm_optics D h sun) ?_ (by rw [hs]; exact D.arrays) (by rw [hs]; exact hx) hc r
  subst hs
  intro a ha e z az dni ghi dhi am al
  have e : pyLower "haydavies" = "haydavies" := by decide +kernel
  simp [PvArr.getIrradiance, Irradiance.getTotalIrradiance, Irradiance.getSkyDiffuse, e, Irradiance.groundDiffuse, bind,
    Except.bind, pure, Except.pure]

/-- The example system meets the hypotheses. -/
theorem exData : PvwattsData exSystem := by
  refine ⟨by simp [exSystem], exNumeric, by simp [exSystem, PyDict.get?], ?_, ?_⟩
  · intro k v hv
    simp only [exSystem, PyDict.get?] at hv
    split_ifs at hv <;> simp at hv <;> exact ⟨_, hv.symm⟩
  · intro k v hv
    simp [exSystem, PyDict.get?] at hv

/-- An hour of weather. -/
def exWeather : DF := ⟨[12, 13], [("ghi", fun _ => 800), ("dni", fun _ => 700), ("dhi", fun _ => 100)]⟩

/-- A site at sea level with the sun fixed in the sky. -/
def exSite (n : Numerics) (t : Irradiance.PerezTable) : Site where
  altitude := 0
  solarPosition := fun _ _ _ _ => .ok ⟨fun _ => 30, fun _ => 30, fun _ => 180⟩
  extra := fun _ _ => 1366
  clearskyDni := fun _ _ _ => .ok fun _ => 800
  tb := ⟨fun _ => some t, fun _ _ _ => 0⟩
  interpolator := fun _ _ _ => .ok fun _ => 1
  sigma := fin 5.67e-8
  numerics := n

/-- A chain that runs: its runs meet the hypotheses of C93-C99 (bare frame, 1-tuple, and from plane-of-array irradiance). -/
example (n : Numerics) (t : Irradiance.PerezTable) (r : Results) : ∃ c q q', withPvwatts exSystem {} = .ok c ∧
    runModel c (exSite n t) (.frame exWeather) r = .ok q ∧ runModel c (exSite n t) (.tuple [exWeather]) r = .ok q' ∧
    c.system.arrays ≠ [] ∧ q.ac = q'.ac := by
  obtain ⟨c, hc⟩ := exChain
  have hs : c.system = exSystem := by rw [((pvwatts_preset exSystem c).mp hc).2.2]
  have cols : ∀ x : Input, frames x = [exWeather] → HasCols x ["ghi", "dni", "dhi"] := by
    intro x hx d hd k hk
    rw [hx, List.mem_singleton] at hd
    subst hd
    simp only [List.mem_cons, List.not_mem_nil, or_false] at hk
    rcases hk with rfl | rfl | rfl <;> simp [exWeather, PyDict.get?]
  obtain ⟨q, hq⟩ := pvwatts_chain_runs (s := exSite n t) exData hc (fun _ _ _ => ⟨_, rfl⟩) (by simp [exSite]) (x := .frame exWeather)
    (.inl trivial) (cols _ rfl) r
  obtain ⟨q', hq'⟩ := pvwatts_chain_runs (s := exSite n t) exData hc (fun _ _ _ => ⟨_, rfl⟩) (by simp [exSite]) (x := .tuple [exWeather])
    (.inr ⟨by simp [frames, exSystem], by simp [frames]⟩) (cols _ rfl) r
  refine ⟨c, q, q', hc, hq, hq', by simp [hs, exSystem], (ChainFacts.container_irrelevant hq hq' fun k hk => ?_).2⟩
  have : k = 0 := by simpa [hs, exSystem] using hk
  subst this
  rfl

end Pvlib.Props.ChainTotal
end
