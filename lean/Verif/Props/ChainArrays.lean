import Verif.Props.ChainRun

/-! # Properties C95 (array by array) and C96 (shape of the results) -/

noncomputable section
open scoped Classical
namespace Pvlib.Props.ChainArrays
open Fl Pvlib.Tools Pvlib.PvFunctions Pvlib.PvSystem Pvlib.ModelChain Pvlib.Props.PvSystem Pvlib.Props.ChainRun

/-! ### Specification -/

/-- The frame a user supplied for array `k`: a bare frame is for every array. -/
def frameFor : Input → ℕ → Option DF
  | .frame d, _ => some d
  | .tuple ds, k => ds[k]?
  | .list ds, k => ds[k]?

/-- The result of array `k`; what is not a tuple is shared by all arrays. -/
def part {α : Type} (k : ℕ) : Option (PerArray α) → Option α
  | none => none
  | some (.one x) => some x
  | some (.tuple xs) => xs[k]?

/-- The results are a tuple, one entry per array, unless there is one array and the user passed a bare frame. -/
def Shape {α : Type} (sys : System) (x : Input) (v : Option (PerArray α)) : Prop :=
  if Bare x ∧ sys.arrays.length = 1 then ∃ y, v = some (.one y) else ∃ ys, v = some (.tuple ys) ∧ ys.length = sys.arrays.length

/-- The value of a column, or a default where there is no such column. -/
def colOr (d : DF) (name : String) (v : Fl) : Ser := (d.cols.get? name).getD fun _ => v

/-- Plane-of-array irradiance of an array. -/
structure PoaSpec (c : Chain) (s : Site) (sp : SolPos) (am : AirMass) (times : List ℝ) (allAlbedo : Prop) (a : PvArr) (w ti : DF) :
    Prop where
  columns : ∃ dni ghi dhi, w.cols.get? "dni" = some dni ∧ w.cols.get? "ghi" = some ghi ∧ w.cols.get? "dhi" = some dhi ∧
    ∃ p : ℕ → Irradiance.Poa, ti = poaFrame times p ∧
      ∀ i, a.getIrradiance s.tb (some (s.extra times i)) (sp.apparent_zenith i) (sp.azimuth i) (dni i) (ghi i) (dhi i) none
        (some (am.relative i)) (some (if allAlbedo then colOr w "albedo" a.albedo i else a.albedo)) c.transposition_model = .ok (p i)

/-- Angle of incidence, its modifier, the spectral modifier and the effective irradiance of an array. -/
structure OpticsSpec (c : Chain) (s : Site) (sp : SolPos) (am : AirMass) (a : PvArr) (w ti : DF) (aoi iam sm e : Ser) : Prop where
  angle : ∀ i, aoi i = a.getAoi (sp.apparent_zenith i) (sp.azimuth i)
  modifier : if c.aoi = .no_loss then ∀ i, iam i = 1 else ∀ i, a.getIam s.interpolator (aoi i) c.aoi.name = .ok (iam i)
  spectral : match c.spectral with
    | .no_loss => ∀ i, sm i = 1
    | .sapm => ∀ i, sapmSpectralOf a (am.absolute i) = .ok (sm i)
    | .first_solar => ∃ pw, w.cols.get? "precipitable_water" = some pw ∧ ∀ i, firstSolarOf a (am.absolute i) (pw i) = .ok (sm i)
  effective : ∃ direct diffuse fd, ti.cols.get? "poa_direct" = some direct ∧ ti.cols.get? "poa_diffuse" = some diffuse ∧
    fdOf a = .ok fd ∧ ∀ i, e i = sm i * (direct i * iam i + fd * diffuse i)

/-- Cell temperature of an array: given in the data; or from the module temperature given in the data, with the SAPM model; or by
the chain's model.  `poa` is the irradiance the temperature is computed from. -/
def CellSpec (c : Chain) (s : Site) (times : List ℝ) (a : PvArr) (w : DF) (poa e t : Ser) : Prop :=
  match w.cols.get? "cell_temperature" with
  | some t' => t = t'
  | none =>
    match (if c.temp = .sapm then w.cols.get? "module_temperature" else none) with
    | some m => ∃ dT, getNum a.temperature_model_parameters "deltaT" = .ok dT ∧
        ∀ i, t i = Temperature.sapmCellFromModule (m i) (poa i) dT
    | none => a.getCellTemperature s.sigma ⟨poa, colOr w "temp_air" 20, colOr w "wind_speed" 0,
        if c.temp = .noct_sam then some e else none, none, hoursOf times⟩ c.temp.name = .ok t

/-- Voltages scale with the modules in a string, currents with the strings, power with both. -/
def scaledBy (a : PvArr) (name : String) (v : Fl) : Fl :=
  if name ∈ ["v_mp", "v_oc"] then v * a.modules_per_string
  else if name ∈ ["i_mp", "i_x", "i_xx", "i_sc"] then v * a.strings
  else v * a.modules_per_string * a.strings

/-- The five parameters of the single diode equation, by model. -/
def diodeParams (m : DcModel) (a : PvArr) (e t : Fl) : Except PyErr Five :=
  if m = .desoto then desotoOf a e t else if m = .cec then cecOf a e t else pvsystOf a e t

/-- DC output of an array before losses. -/
def DcSpec (c : Chain) (s : Site) (a : PvArr) (e t : Ser) (d : Dc) : Prop :=
  match c.dc with
  | none => False
  | some .pvwatts => ∃ p q : Ser, d = .series p ∧ ∀ i, pvwattsDcOf a (e i) (t i) = .ok (q i) ∧ p i = scaledBy a "p_mp" (q i)
  | some .sapm => ∃ (f : PyDict Ser) (o : ℕ → SapmOut), d = .frame f ∧ (∀ i, sapmOf a (e i) (t i) = .ok (o i)) ∧
      ∀ name, f.get? name = ((sapmFrame o).get? name).map fun v i => scaledBy a name (v i)
  | some m => ∃ (f : PyDict Ser) (q : ℕ → Five) (o : ℕ → SevenPoints), d = .frame f ∧
      (∀ i, diodeParams m a (e i) (t i) = .ok (q i)) ∧
      (∀ i, singlediode s.numerics (q i) = .ok (o i)) ∧
      ∀ name, f.get? name = ((diodeFrame o).get? name).map fun v i => fillna0 (scaledBy a name (v i))

/-- What the ohmic losses leave. -/
def OhmicSpec (c : Chain) (a : PvArr) (d d' : Dc) : Prop :=
  match c.ohmic with
  | .no_loss => d' = d
  | .dc_ohms_from_percent => ∃ (f f' : PyDict Ser) (i_mp p : Ser) (ohms : Fl), d = .frame f ∧ d' = .frame f' ∧
      a.dcOhms = .ok ohms ∧ f.get? "i_mp" = some i_mp ∧ f.get? "p_mp" = some p ∧
      f'.get? "p_mp" = some (fun i => p i - ohms * i_mp i * i_mp i) ∧ ∀ name, name ≠ "p_mp" → f'.get? name = f.get? name

/-- What the system losses leave: every column of the DC output times the same factor. -/
def LossSpec (c : Chain) (d d' : Dc) (factor : Fl) : Prop :=
  match c.losses with
  | .no_loss => d' = d ∧ factor = 1
  | .pvwatts => ∃ l, c.system.pvwattsLosses = .ok l ∧ factor = (100 - l) / 100 ∧
      match d, d' with
      | .series p, .series p' => ∀ i, p' i = p i * factor
      | .frame f, .frame f' => ∀ name, f'.get? name = (f.get? name).map fun v i => v i * factor
      | _, _ => False

/-- AC power of the system from the DC output of all arrays: the inverter function of the chain's model on the power (and
voltage) of all of them; the PVWatts inverter returns 0 where its result is NaN. -/
def AcSpec (c : Chain) (dcs : List Dc) (ac : Ser) : Prop :=
  match c.ac with
  | .sandia => ∃ ps vs : List Ser, dcs.map (fun d => d.col "p_mp") = ps.map .ok ∧ dcs.map (fun d => d.col "v_mp") = vs.map .ok ∧
      ∀ i, c.system.getAc "sandia" (.tuple (ps.map fun p => p i)) (some (.tuple (vs.map fun v => v i))) = .ok (ac i)
  | .adr => ∃ p v : Ser, dcs.map (fun d => d.col "p_mp") = [.ok p] ∧ dcs.map (fun d => d.col "v_mp") = [.ok v] ∧
      ∀ i, c.system.getAc "adr" (.tuple [p i]) (some (.tuple [v i])) = .ok (ac i)
  | .pvwatts => ∃ (ps : List Ser) (q : Ser), dcs.map Dc.power = ps.map .ok ∧
      ∀ i, c.system.getAc "pvwatts" (.tuple (ps.map fun p => p i)) none = .ok (q i) ∧ ac i = fillna0 (q i)

/-! ### Lemmas -/

theorem bind_ok {ε α β : Type} {x : Except ε α} {f : α → Except ε β} {b : β} (h : x.bind f = .ok b) :
    ∃ a, x = .ok a ∧ f a = .ok b := by
  cases x with
  | error e => simp [Except.bind] at h
  | ok a => exact ⟨a, rfl, h⟩

set_option hygiene false in
local macro "unbind" x:ident y:ident : tactic =>
  `(tactic| (obtain ⟨$x, $y, h'⟩ := bind_ok h; clear h; have h := h'; clear h'))

theorem gather_ok {α : Type} {f : ℕ → Except PyErr α} {g : ℕ → α} (h : gather f = .ok g) (i : ℕ) : f i = .ok (g i) := by
  unfold gather at h
  split_ifs at h with h1
  injection h with h
  rw [← h]
  exact Classical.choose_spec h1 i

theorem need_ok {α : Type} {x : Option α} {y : α} (h : need x = .ok y) : x = some y := by
  cases x with
  | none => simp [need] at h
  | some z => simp [need] at h; rw [h]

theorem need_eq {α : Type} {x : Option α} {y z : α} (h : need x = .ok y) (hz : x = some z) : y = z := by
  rw [need_ok h] at hz; exact Option.some.inj hz

theorem argOf_ok {α : Type} {d : PyDict α} {name : String} {v : α} (h : argOf d name = .ok v) : d.get? name = some v := by
  unfold argOf at h
  cases hd : d.get? name with
  | none => simp [hd] at h
  | some w => simp [hd] at h; rw [h]

/-- What was validated is the part of each array. -/
theorem validate_part {α : Type} {sys : System} {v : PerArray α} {wide : Bool} {xs : List α}
    (h : validatePerArray sys v wide = .ok xs) : xs.length = sys.arrays.length ∧
      ∀ k, k < sys.arrays.length → part k (some v) = xs[k]? := by
  have hs := (validate_iff sys v wide xs).mp h
  refine ⟨supplies_length hs, fun k hk => ?_⟩
  cases v with
  | one x => simp only [Supplies] at hs; simp [part, hs.2, hk]
  | tuple ys => simp only [Supplies] at hs; simp [part, hs.2]

/-- The input is a tuple or a list. -/
def isTuple : Input → Bool
  | .frame _ => false
  | _ => true

theorem bare_iff (x : Input) : Bare x ↔ isTuple x = false := by cases x <;> simp [Bare, isTuple]

/-- `singleton` as a run on `x` sets it. -/
def single (sys : System) (x : Input) : Bool := decide (sys.arrays.length = 1) && isTuple x

theorem finish {α : Type} (sys : System) (x : Input) (ys : List α) (h : ys.length = sys.arrays.length) :
    Shape sys x (some (wrapIf (single sys x) (PerArray.ofResult (wrap true ys)))) ∧
    ∀ k, k < sys.arrays.length → part k (some (wrapIf (single sys x) (PerArray.ofResult (wrap true ys)))) = ys[k]? := by
  match ys, h with
  | [], h => simp [← h, Shape, single, wrap, PerArray.ofResult, wrapIf]
  | [y], h =>
    have h1 : sys.arrays.length = 1 := by simpa using h.symm
    rw [Shape, bare_iff]
    cases hb : isTuple x
    · refine ⟨by simp [single, wrap, PerArray.ofResult, wrapIf, h1, hb], fun k hk => ?_⟩
      obtain rfl : k = 0 := by omega
      simp [single, wrap, PerArray.ofResult, wrapIf, h1, hb, part]
    · refine ⟨by simp [single, wrap, PerArray.ofResult, wrapIf, h1, hb], fun k hk => ?_⟩
      simp [single, wrap, PerArray.ofResult, wrapIf, h1, hb, part]
  | y :: z :: ys, h =>
    have h1 : sys.arrays.length ≠ 1 := by simp at h; omega
    refine ⟨?_, fun k hk => ?_⟩
    · simp only [Shape, h1, and_false, if_false]
      exact ⟨_, rfl, by simpa using h⟩
    · simp [wrap, PerArray.ofResult, wrapIf, part]

theorem unwrap_eq {α : Type} (ys : List α) : unwrapValue true ys = wrap true ys := by
  rcases ys with _ | ⟨y, _ | ⟨y', ys⟩⟩ <;> rfl

theorem unwrap_len {α : Type} (sys : System) (ys : List α) (h : ys.length = sys.arrays.length) :
    unwrapValue (decide (sys.arrays.length = 1)) ys = wrap true ys := by
  rw [← h]
  rcases ys with _ | ⟨y, _ | ⟨y', ys⟩⟩ <;> simp [unwrapValue, wrap]

/-- A value that is not a tuple, stored. -/
theorem zip_get {α β : Type} {as : List α} {bs : List β} {k : ℕ} {a : α} {b : β} (ha : as[k]? = some a)
    (hb : bs[k]? = some b) : (as.zip bs)[k]? = some (a, b) := by
  simp [List.zip, List.getElem?_zipWith, ha, hb]

theorem lt_of_get {α : Type} {as : List α} {k : ℕ} {a : α} (h : as[k]? = some a) : k < as.length := by
  rw [List.getElem?_eq_some_iff] at h; exact h.1

theorem get_lt {α : Type} {as : List α} {k : ℕ} (h : k < as.length) : ∃ a, as[k]? = some a :=
  ⟨as[k], List.getElem?_eq_getElem h⟩

/-- Elements of a collected list. -/
theorem collect_get {α β : Type} {f : α → Except PyErr β} {as : List α} {bs : List β} (h : collect (as.map f) = .ok bs) :
    bs.length = as.length ∧ ∀ (k : ℕ) a, as[k]? = some a → ∃ b, bs[k]? = some b ∧ f a = .ok b := by
  rw [collect_ok_iff, map_iff] at h
  refine ⟨h.1, fun k a ha => ?_⟩
  obtain ⟨b, hb⟩ := get_lt (as := bs) (k := k) (by rw [h.1]; exact lt_of_get ha)
  exact ⟨b, hb, h.2 k a b ha hb⟩

/-- A method of the system with one per-array argument. -/
theorem perOne_part {α β : Type} {sys : System} {x : Input} {v : PerArray α} {wide : Bool} {f : PvArr → α → Except PyErr β}
    {r : PerArray β} (h : perOne sys v wide f = .ok r) : Shape sys x (some (wrapIf (single sys x) r)) ∧
      ∀ k a, sys.arrays[k]? = some a → ∃ z y, part k (some v) = some z ∧ f a z = .ok y ∧
        part k (some (wrapIf (single sys x) r)) = some y := by
  unbind xs h1
  unbind t h2
  have h := Except.ok.inj h
  subst h
  rw [unwrapped_ok_iff] at h2
  obtain ⟨ys, h2, rfl⟩ := h2
  obtain ⟨hl, hp⟩ := validate_part h1
  have h3 := (map_zip_iff _ _ _ hl _).mp h2
  obtain ⟨hs, hf⟩ := finish sys x ys h3.1
  refine ⟨hs, fun k a ha => ?_⟩
  have hk := lt_of_get ha
  obtain ⟨z, hz⟩ := get_lt (as := xs) (k := k) (by omega)
  obtain ⟨y, hy⟩ := get_lt (as := ys) (k := k) (by omega)
  exact ⟨z, y, by rw [hp k hk, hz], h3.2 k a z y ha hz hy, by rw [hf k hk, hy]⟩

/-! ### Steps: inputs -/

theorem get_append {α : Type} (d e : PyDict α) (k : String) :
    (d ++ e : PyDict α).get? k = (d.get? k).or (PyDict.get? e k) := by
  induction d with
  | nil => simp [PyDict.get?]
  | cons x d ih =>
    obtain ⟨n, v⟩ := x
    show (if n = k then some v else PyDict.get? (d ++ e) k) = (if n = k then some v else PyDict.get? d k).or _
    split_ifs with h
    · rfl
    · exact ih

theorem select_get (d : DF) (keys : List String) (k : String) :
    (d.select keys).cols.get? k = if k ∈ keys then d.cols.get? k else none := by
  unfold DF.select
  dsimp only
  induction keys with
  | nil => simp [PyDict.get?]
  | cons n keys ih =>
    cases hn : d.cols.get? n with
    | none =>
      simp only [List.filterMap_cons, hn, Option.map_none, ih, List.mem_cons]
      by_cases h : k = n
      · subst h; simp [hn]
      · simp [h]
    | some v =>
      simp only [List.filterMap_cons, hn, Option.map_some, List.mem_cons]
      show (if n = k then some v else _) = _
      by_cases h : n = k
      · subst h; simp [hn]
      · rw [if_neg h]
        simp only [Ne.symm h, false_or]
        exact ih

theorem default_get (d : DF) (key : String) (v : Fl) (k : String) :
    (d.default key v).cols.get? k = if k = key then some (colOr d key v) else d.cols.get? k := by
  unfold DF.default DF.has colOr
  cases hk : d.cols.get? key with
  | some w =>
    simp only [Option.isSome_some, if_true, Option.getD_some]
    by_cases h : k = key
    · rw [if_pos h, h, hk]
    · rw [if_neg h]
  | none =>
    simp only [Option.isSome_none, Option.getD_none]
    rw [if_neg (by simp)]
    show PyDict.get? (d.cols ++ [(key, fun _ => v)]) k = _
    rw [get_append]
    by_cases h : k = key
    · rw [h, hk, if_pos rfl]; simp [PyDict.get?]
    · rw [if_neg h]
      have : PyDict.get? [(key, fun (_ : ℕ) => v)] k = none := by simp [PyDict.get?, Ne.symm h]
      rw [this]; simp

theorem weather_get (d : DF) (k : String) (hk : k ∈ ["ghi", "dhi", "dni", "precipitable_water"]) :
    (buildWeather d).cols.get? k = d.cols.get? k := by
  have h1 : k ≠ "temp_air" := by rintro rfl; simp at hk
  have h2 : k ≠ "wind_speed" := by rintro rfl; simp at hk
  unfold buildWeather
  rw [default_get, if_neg h1, default_get, if_neg h2, select_get, if_pos]
  simp only [weatherKeys, List.mem_cons, List.not_mem_nil, or_false] at hk ⊢
  tauto

theorem weather_temp (d : DF) : (buildWeather d).cols.get? "temp_air" = some (colOr d "temp_air" 20) := by
  unfold buildWeather
  rw [default_get, if_pos rfl]
  simp only [colOr, default_get, select_get]
  simp [weatherKeys]

theorem weather_wind (d : DF) : (buildWeather d).cols.get? "wind_speed" = some (colOr d "wind_speed" 0) := by
  unfold buildWeather
  rw [default_get, if_neg (by decide), default_get, if_pos rfl]
  simp only [colOr, select_get]
  simp [weatherKeys]

theorem weather_index (d : DF) : (buildWeather d).index = d.index := by
  unfold buildWeather DF.default DF.select
  split_ifs <;> rfl

/-- The wrapped input, as the parts of the arrays. -/
theorem part_input {α : Type} (sys : System) (x : Input) (f : DF → α) (k : ℕ) :
    part k (some (wrapIf (single sys x) (PerArray.map f (toTuple x)))) = (frameFor x k).map f := by
  cases x with
  | frame d => simp [toTuple, PerArray.map, wrapIf, single, isTuple, part, frameFor]
  | tuple ds => simp [toTuple, PerArray.map, wrapIf, part, frameFor]
  | list ds => simp [toTuple, PerArray.map, wrapIf, part, frameFor]

/-- The common index of the frames. -/
def Index (x : Input) (times : List ℝ) : Prop := ∀ d ∈ frames x, d.index = times

theorem assignWeather_spec {sys : System} {x : Input} {r r' : Results} (h : assignWeather sys (toTuple x) r = .ok r')
    (hx : Bare x ∨ Matches sys x) : ∃ times v, r' = { r with singleton := single sys x, weather := some v, times := some times } ∧
      v = wrapIf (single sys x) (PerArray.map buildWeather (toTuple x)) ∧ Index x times := by
  have hsame : ∀ d ∈ frames x, ∀ e ∈ frames x, d.index = e.index := by
    rcases hx with hb | hm
    · cases x <;> simp [Bare] at hb; simp [frames]
    · exact hm.2
  have hsing : PerArray.isTuple (toTuple x) = isTuple x := by cases x <;> rfl
  unfold assignWeather at h
  rw [hsing] at h
  cases x with
  | frame d =>
    simp only [toTuple, PerArray.map, wrapIf, single, isTuple, Bool.and_false, Bool.false_eq_true, if_false,
      assignTimes, Except.ok.injEq] at h
    refine ⟨(buildWeather d).index, .one (buildWeather d), ?_, ?_, ?_⟩
    · rw [← h]; simp [single, isTuple]
    · simp [toTuple, PerArray.map, wrapIf, single, isTuple]
    · intro e he; simp [frames] at he; rw [he, weather_index]
  | tuple ds =>
    cases ds with
    | nil => simp [toTuple, PerArray.map, wrapIf, assignTimes] at h
    | cons d ds =>
      simp only [toTuple, PerArray.map, wrapIf, List.map_cons, assignTimes, Except.ok.injEq] at h
      refine ⟨(buildWeather d).index, .tuple ((d :: ds).map buildWeather), ?_, ?_, ?_⟩
      · rw [← h]; rfl
      · simp [toTuple, PerArray.map, wrapIf]
      · intro e he; rw [weather_index]; exact hsame e he d (by simp [frames])
  | list ds =>
    cases ds with
    | nil => simp [toTuple, PerArray.map, wrapIf, assignTimes] at h
    | cons d ds =>
      simp only [toTuple, PerArray.map, wrapIf, List.map_cons, assignTimes, Except.ok.injEq] at h
      refine ⟨(buildWeather d).index, .tuple ((d :: ds).map buildWeather), ?_, ?_, ?_⟩
      · rw [← h]; rfl
      · simp [toTuple, PerArray.map, wrapIf]
      · intro e he; rw [weather_index]; exact hsame e he d (by simp [frames])

/-- Columns of the frames of the arrays. -/
theorem cols_part {v : PerArray DF} {name : String} {r : PerArray Ser} (h : tupleFromDfs v name = .ok r) (k : ℕ) {d : DF}
    (hd : part k (some v) = some d) : ∃ z, d.cols.get? name = some z ∧ part k (some r) = some z := by
  cases v with
  | one w =>
    obtain ⟨z, h1, h2⟩ := bind_ok h
    injection h2 with h2
    simp only [part, Option.some.injEq] at hd
    subst hd h2
    exact ⟨z, argOf_ok h1, rfl⟩
  | tuple ws =>
    obtain ⟨zs, h1, h2⟩ := bind_ok h
    injection h2 with h2
    subst h2
    obtain ⟨_, hg⟩ := collect_get h1
    obtain ⟨z, hz, h3⟩ := hg k d hd
    exact ⟨z, argOf_ok h3, hz⟩

theorem frame_exists {sys : System} {x : Input} (hx : Bare x ∨ Matches sys x) {k : ℕ} (hk : k < sys.arrays.length) :
    ∃ w, frameFor x k = some w := by
  cases x with
  | frame d => exact ⟨d, rfl⟩
  | tuple ds =>
    have : Matches sys (.tuple ds) := by rcases hx with hb | h; exacts [absurd hb (by simp [Bare]), h]
    exact get_lt (by rw [show ds.length = _ from this.1]; exact hk)
  | list ds =>
    have : Matches sys (.list ds) := by rcases hx with hb | h; exacts [absurd hb (by simp [Bare]), h]
    exact get_lt (by rw [show ds.length = _ from this.1]; exact hk)

theorem frame_mem {x : Input} {k : ℕ} {w : DF} (h : frameFor x k = some w) : w ∈ frames x := by
  cases x with
  | frame d => simp [frameFor] at h; simp [frames, h]
  | tuple ds => exact List.mem_of_getElem? h
  | list ds => exact List.mem_of_getElem? h

/-! ### Steps: solar position, irradiance, optics -/

theorem solarPos_spec {c : Chain} {s : Site} {x : Input} {r r' : Results} (h : prepSolarPos c s (toTuple x) r = .ok r') :
    ∃ sp times d, r' = { r with solar_position := some sp } ∧ r.times = some times ∧ frameFor x 0 = some d ∧
      s.solarPosition times c.solar_position_method (d.cols.get? "pressure") (d.cols.get? "temp_air") = .ok sp := by
  unbind d h1
  unbind t h2
  unbind sp h3
  have h := Except.ok.inj h
  refine ⟨sp, t, d, h.symm, need_ok h2, ?_, h3⟩
  cases x with
  | frame d => simpa [toTuple, firstFrame, frameFor] using h1
  | tuple ds => cases ds <;> simp [toTuple, firstFrame, frameFor] at h1 ⊢; exact h1
  | list ds => cases ds <;> simp [toTuple, firstFrame, frameFor] at h1 ⊢; exact h1

theorem airmass_spec {c : Chain} {s : Site} {r r' : Results} {sp : SolPos} (h : prepAirmass c s r = .ok r')
    (hs : r.solar_position = some sp) : ∃ am : AirMass, r' = { r with airmass := some am } ∧
      ∀ i, Location.getAirmass s.altitude (sp.zenith i) (sp.apparent_zenith i) c.airmass_model = .ok (am.relative i, am.absolute i) := by
  unbind sp' h1
  unbind am h2
  have h := Except.ok.inj h
  have := need_eq h1 hs
  subst this
  exact ⟨⟨fun i => (am i).1, fun i => (am i).2⟩, h.symm, gather_ok h2⟩

theorem fixed_spec {c : Chain} {x : Input} {r r' : Results} {sp : SolPos} (h : prepFixed c r = .ok r')
    (hs : r.solar_position = some sp) (hsi : r.singleton = single c.system x) : ∃ v, r' = { r with aoi := v } ∧
      Shape c.system x v ∧ ∀ k a, c.system.arrays[k]? = some a →
        part k v = some fun i => a.getAoi (sp.apparent_zenith i) (sp.azimuth i) := by
  unbind sp' h1
  unbind t h2
  have h := Except.ok.inj h
  have := need_eq h1 hs
  subst this
  rw [unwrapped_ok_iff] at h2
  obtain ⟨ys, h2, rfl⟩ := h2
  have h3 := (map_iff _ _ _).mp h2
  obtain ⟨f1, f2⟩ := finish c.system x ys h3.1
  refine ⟨_, h.symm, by rw [hsi]; exact f1, fun k a ha => ?_⟩
  have hk := lt_of_get ha
  obtain ⟨y, hy⟩ := get_lt (as := ys) (k := k) (by omega)
  have := h3.2 k a y ha hy
  injection this with this
  rw [hsi, f2 k hk, hy, ← this]

/-- Every frame has an albedo. -/
def AllAlbedo (x : Input) : Prop := HasCols x ["albedo"]

theorem albedo_spec (c : Chain) (x : Input) (r : Results) (hsi : r.singleton = single c.system x) :
    ∃ v, prepAlbedo c (toTuple x) r = { r with albedo := some v } ∧ ∀ k a w, c.system.arrays[k]? = some a →
      frameFor x k = some w → part k (some v) = some fun i => if AllAlbedo x then colOr w "albedo" a.albedo i else a.albedo := by
  unfold prepAlbedo
  rw [hsi]
  cases ht : tupleFromDfs (toTuple x) "albedo" with
  | ok al =>
    refine ⟨_, rfl, fun k a w ha hw => ?_⟩
    have hall : AllAlbedo x := by
      intro d hd n hn
      simp only [List.mem_singleton] at hn
      subst hn
      cases x with
      | frame d' =>
        obtain ⟨z, h1, _⟩ := cols_part ht 0 (d := d') rfl
        simp only [frames, List.mem_singleton] at hd
        rw [hd, h1]; simp
      | tuple ds =>
        obtain ⟨j, hj⟩ := List.getElem?_of_mem hd
        obtain ⟨z, h1, _⟩ := cols_part ht j (d := d) hj
        rw [h1]; simp
      | list ds =>
        obtain ⟨j, hj⟩ := List.getElem?_of_mem hd
        obtain ⟨z, h1, _⟩ := cols_part ht j (d := d) hj
        rw [h1]; simp
    have hp : part k (some (toTuple x)) = some w := by cases x <;> exact hw
    obtain ⟨z, h1, h2⟩ := cols_part ht k hp
    have h3 : part k (some (wrapIf (single c.system x) al)) = part k (some al) := by
      cases x with
      | frame d =>
        cases al <;> simp [wrapIf, single, isTuple]
      | tuple ds =>
        obtain ⟨zs, _, h2⟩ := bind_ok ht
        injection h2 with h2; subst h2; rfl
      | list ds =>
        obtain ⟨zs, _, h2⟩ := bind_ok ht
        injection h2 with h2; subst h2; rfl
    rw [h3, h2]
    simp only [hall, if_true, colOr, h1, Option.getD_some]
  | error e =>
    refine ⟨_, rfl, fun k a w ha hw => ?_⟩
    have hall : ¬ AllAlbedo x := by
      intro hall
      have hok : ∃ v, tupleFromDfs (toTuple x) "albedo" = .ok v := by
        cases x with
        | frame d =>
          obtain ⟨z, hz⟩ := Option.ne_none_iff_exists'.mp (hall d (by simp [frames]) "albedo" (by simp))
          exact ⟨_, by simp [toTuple, tupleFromDfs, DF.col, argOf, hz, Except.bind]; rfl⟩
        | tuple ds =>
          have : collect (ds.map fun df => df.col "albedo") = .ok (ds.map fun d => colOr d "albedo" 0) := by
            rw [collect_ok_iff, List.map_map]
            refine List.map_congr_left fun d hd => ?_
            obtain ⟨z, hz⟩ := Option.ne_none_iff_exists'.mp (hall d hd "albedo" (by simp))
            simp [DF.col, argOf, hz, colOr]
          exact ⟨_, by simp only [toTuple, tupleFromDfs, this, Except.bind]; rfl⟩
        | list ds =>
          have : collect (ds.map fun df => df.col "albedo") = .ok (ds.map fun d => colOr d "albedo" 0) := by
            rw [collect_ok_iff, List.map_map]
            refine List.map_congr_left fun d hd => ?_
            obtain ⟨z, hz⟩ := Option.ne_none_iff_exists'.mp (hall d hd "albedo" (by simp))
            simp [DF.col, argOf, hz, colOr]
          exact ⟨_, by simp only [toTuple, tupleFromDfs, this, Except.bind]; rfl⟩
      obtain ⟨v, hv⟩ := hok
      rw [hv] at ht; cases ht
    simp only [hall, if_false, wrapIf, part, List.getElem?_map, ha, Option.map_some]

theorem albedo_spec' {c : Chain} {x : Input} {r b : Results} (hb : prepAlbedo c (toTuple x) r = b)
    (hsi : r.singleton = single c.system x) :
    ∃ v, b = { r with albedo := some v } ∧ ∀ k a w, c.system.arrays[k]? = some a →
      frameFor x k = some w → part k (some v) = some fun i => if AllAlbedo x then colOr w "albedo" a.albedo i else a.albedo :=
  hb ▸ albedo_spec c x r hsi

theorem irradiance_spec {c : Chain} {s : Site} {x : Input} {r r' : Results} {sp : SolPos} {am : AirMass} {times : List ℝ}
    {al : PerArray Ser} (h : systemIrradiance c s r = .ok r') (hx : Bare x ∨ Matches c.system x)
    (h1 : r.solar_position = some sp) (h2 : r.airmass = some am) (h3 : r.times = some times) (h4 : r.albedo = some al)
    (h5 : r.weather = some (wrapIf (single c.system x) (PerArray.map buildWeather (toTuple x))))
    (hal : ∀ k a w, c.system.arrays[k]? = some a → frameFor x k = some w → part k (some al) =
      some fun i => if AllAlbedo x then colOr w "albedo" a.albedo i else a.albedo)
    (hsi : r.singleton = single c.system x) : ∃ v, r' = { r with total_irrad := v } ∧ Shape c.system x v ∧
      ∀ k a, c.system.arrays[k]? = some a → ∃ w ti, frameFor x k = some w ∧ part k v = some ti ∧
        PoaSpec c s sp am times (AllAlbedo x) a w ti := by
  unbind sp' e1
  unbind w' e5
  unbind times' e3
  unbind dni g1
  unbind ghi g2
  unbind dhi g3
  unbind al' e4
  unbind am' e2
  obtain rfl := need_eq e1 h1
  obtain rfl := need_eq e2 h2
  obtain rfl := need_eq e3 h3
  obtain rfl := need_eq e4 h4
  obtain rfl := need_eq e5 h5
  unbind dnis v1
  unbind ghis v2
  unbind dhis v3
  unbind als v4
  unbind t ht
  have h := Except.ok.inj h
  rw [unwrapped_ok_iff] at ht
  obtain ⟨ys, ht, rfl⟩ := ht
  obtain ⟨l1, p1⟩ := validate_part v1
  obtain ⟨l2, p2⟩ := validate_part v2
  obtain ⟨l3, p3⟩ := validate_part v3
  obtain ⟨l4, p4⟩ := validate_part v4
  have hm := (map_zip_iff _ _ _ (by simp [l1, l2, l3, l4]) _).mp ht
  obtain ⟨f1, f2⟩ := finish c.system x ys hm.1
  refine ⟨_, h.symm, by rw [hsi]; exact f1, fun k a ha => ?_⟩
  have hk := lt_of_get ha
  obtain ⟨w, hw⟩ := frame_exists hx hk
  obtain ⟨y, hy⟩ := get_lt (as := ys) (k := k) (by omega)
  have hpw : part k (some (wrapIf (single c.system x) (PerArray.map buildWeather (toTuple x)))) = some (buildWeather w) := by
    rw [part_input, hw]; rfl
  obtain ⟨d, d1, d2⟩ := cols_part g1 k hpw
  obtain ⟨g, e1, e2⟩ := cols_part g2 k hpw
  obtain ⟨f, k1, k2⟩ := cols_part g3 k hpw
  rw [weather_get _ _ (by simp)] at d1 e1 k1
  rw [p1 k hk] at d2
  rw [p2 k hk] at e2
  rw [p3 k hk] at k2
  have h4' := hal k a w ha hw
  rw [p4 k hk] at h4'
  have hz := hm.2 k a _ y ha (zip_get d2 (zip_get e2 (zip_get k2 h4'))) hy
  obtain ⟨p, hp, hp2⟩ := bind_ok hz
  injection hp2 with hp2
  refine ⟨w, y, hw, by rw [hsi, f2 k hk, hy], ⟨d, g, f, d1, e1, k1, p, hp2.symm, gather_ok hp⟩⟩

theorem ones_spec (sys : System) (x : Input) : Shape sys x (some (wrapIf (single sys x) (ones sys))) ∧
    ∀ k, k < sys.arrays.length → part k (some (wrapIf (single sys x) (ones sys))) = some fun _ => 1 := by
  have h := finish sys x (List.replicate sys.arrays.length fun (_ : ℕ) => (1 : Fl)) (by simp)
  have e : PerArray.ofResult (wrap true (List.replicate sys.arrays.length fun (_ : ℕ) => (1 : Fl))) = ones sys := by
    unfold ones
    by_cases h1 : sys.arrays.length = 1
    · rw [h1]; simp [wrap, PerArray.ofResult]
    · rw [if_neg h1]
      match sys.arrays.length, h1 with
      | 0, _ => rfl
      | 1, h1 => exact absurd rfl h1
      | n + 2, _ => rfl
  rw [e] at h
  refine ⟨h.1, fun k hk => ?_⟩
  rw [h.2 k hk]; simp [hk]

theorem aoi_spec {c : Chain} {s : Site} {x : Input} {r r' : Results} (h : runAoi c s r = .ok r')
    (hsi : r.singleton = single c.system x) : ∃ v, r' = { r with aoi_modifier := v } ∧ Shape c.system x v ∧
      ∀ k a aoi, c.system.arrays[k]? = some a → part k r.aoi = some aoi → ∃ iam, part k v = some iam ∧
        (if c.aoi = .no_loss then ∀ i, iam i = 1 else ∀ i, a.getIam s.interpolator (aoi i) c.aoi.name = .ok (iam i)) := by
  by_cases hm : c.aoi = .no_loss
  · simp only [runAoi, hm] at h
    have h := Except.ok.inj h
    obtain ⟨o1, o2⟩ := ones_spec c.system x
    refine ⟨_, h.symm, by rw [hsi]; exact o1, fun k a aoi ha _ => ⟨_, by rw [hsi]; exact o2 k (lt_of_get ha), by simp [hm]⟩⟩
  · have h : ((need r.aoi).bind fun aoi => (perOne c.system aoi false fun a x => gather fun i =>
        a.getIam s.interpolator (x i) c.aoi.name).bind fun v => .ok { r with aoi_modifier := some (wrapIf r.singleton v) }) = .ok r' := by
      rw [← h]; unfold runAoi
      cases hc : c.aoi <;> first | rfl | exact absurd hc hm
    unbind aoi h1
    unbind v h2
    have h := Except.ok.inj h
    obtain ⟨p1, p2⟩ := perOne_part (x := x) h2
    refine ⟨_, h.symm, by rw [hsi]; exact p1, fun k a ao ha hao => ?_⟩
    obtain ⟨z, y, q1, q2, q3⟩ := p2 k a ha
    rw [need_ok h1, q1] at hao
    obtain rfl := Option.some.inj hao
    refine ⟨y, by rw [hsi]; exact q3, ?_⟩
    rw [if_neg hm]
    exact gather_ok q2

theorem spectral_spec {c : Chain} {x : Input} {r r' : Results} {am : AirMass} (h : runSpectral c r = .ok r')
    (hx : Bare x ∨ Matches c.system x) (h1 : r.airmass = some am)
    (h5 : r.weather = some (wrapIf (single c.system x) (PerArray.map buildWeather (toTuple x))))
    (hsi : r.singleton = single c.system x) : ∃ v, r' = { r with spectral_modifier := v } ∧ Shape c.system x v ∧
      ∀ k a w, c.system.arrays[k]? = some a → frameFor x k = some w → ∃ sm, part k v = some sm ∧
        (match c.spectral with
          | .no_loss => ∀ i, sm i = 1
          | .sapm => ∀ i, sapmSpectralOf a (am.absolute i) = .ok (sm i)
          | .first_solar => ∃ pw, w.cols.get? "precipitable_water" = some pw ∧
              ∀ i, firstSolarOf a (am.absolute i) (pw i) = .ok (sm i)) := by
  unfold runSpectral at h
  cases hm : c.spectral with
  | no_loss =>
    rw [hm] at h
    have h := Except.ok.inj h
    obtain ⟨o1, o2⟩ := ones_spec c.system x
    exact ⟨_, h.symm, by rw [hsi]; exact o1, fun k a aoi ha _ => ⟨_, by rw [hsi]; exact o2 k (lt_of_get ha), fun _ => rfl⟩⟩
  | sapm =>
    rw [hm] at h
    unbind am' e1
    unbind v h2
    have h := Except.ok.inj h
    obtain rfl := need_eq e1 h1
    obtain ⟨p1, p2⟩ := perOne_part (x := x) h2
    refine ⟨_, h.symm, by rw [hsi]; exact p1, fun k a w ha hw => ?_⟩
    obtain ⟨z, y, q1, q2, q3⟩ := p2 k a ha
    exact ⟨y, by rw [hsi]; exact q3, gather_ok q2⟩
  | first_solar =>
    rw [hm] at h
    unbind w' e5
    unbind pw g1
    unbind am' e1
    unbind v h2
    have h := Except.ok.inj h
    obtain rfl := need_eq e1 h1
    obtain rfl := need_eq e5 h5
    obtain ⟨p1, p2⟩ := perOne_part (x := x) h2
    refine ⟨_, h.symm, by rw [hsi]; exact p1, fun k a w ha hw => ?_⟩
    obtain ⟨z, y, q1, q2, q3⟩ := p2 k a ha
    have hpw : part k (some (wrapIf (single c.system x) (PerArray.map buildWeather (toTuple x)))) = some (buildWeather w) := by
      rw [part_input, hw]; rfl
    obtain ⟨d, d1, d2⟩ := cols_part g1 k hpw
    rw [weather_get _ _ (by simp)] at d1
    rw [d2] at q1
    obtain rfl := Option.some.inj q1
    exact ⟨y, by rw [hsi]; exact q3, d, d1, gather_ok q2⟩

/-- Values stored as a tuple. -/
theorem tuple_shape {α : Type} {sys : System} {x : Input} {ys : List α} (h : ys.length = sys.arrays.length)
    (ht : ¬ (Bare x ∧ sys.arrays.length = 1)) : Shape sys x (some (.tuple ys)) := by
  rw [Shape, if_neg ht]; exact ⟨ys, rfl, h⟩

theorem shape_tuple {α : Type} {sys : System} {x : Input} {ys : List α} (h : Shape sys x (some (.tuple ys))) :
    ys.length = sys.arrays.length ∧ ¬ (Bare x ∧ sys.arrays.length = 1) := by
  unfold Shape at h
  split_ifs at h with hb
  · simp at h
  · obtain ⟨zs, h1, h2⟩ := h
    injection h1 with h1; injection h1 with h1; subst h1
    exact ⟨h2, hb⟩

theorem shape_one {α : Type} {sys : System} {x : Input} {y : α} (h : Shape sys x (some (.one y))) :
    Bare x ∧ sys.arrays.length = 1 := by
  unfold Shape at h
  split_ifs at h with hb
  · exact hb
  · simp at h

theorem ofPer_ok {α : Type} {v : PerArray α} {ys : List α} (h : ofPer v = .ok ys) : v = .tuple ys := by
  cases v with
  | one y => simp [ofPer] at h
  | tuple zs => simp [ofPer] at h; rw [h]

theorem effIrrad_spec {a : PvArr} {ti : DF} {sm iam e : Ser} (h : effIrrad a ti sm iam = .ok e) :
    ∃ direct diffuse fd, ti.cols.get? "poa_direct" = some direct ∧ ti.cols.get? "poa_diffuse" = some diffuse ∧
      fdOf a = .ok fd ∧ ∀ i, e i = sm i * (direct i * iam i + fd * diffuse i) := by
  unbind fd h1
  unbind direct h2
  unbind diffuse h3
  have h := Except.ok.inj h
  exact ⟨direct, diffuse, fd, argOf_ok h2, argOf_ok h3, h1, fun i => by rw [← h]⟩

theorem single_bare {sys : System} {x : Input} (h : Bare x) : single sys x = false := by
  rw [bare_iff] at h; simp [single, h]

theorem eff_spec {c : Chain} {x : Input} {r r' : Results} (h : effectiveIrradianceModel c r = .ok r')
    (hsi : r.singleton = single c.system x) (ht : Shape c.system x r.total_irrad) (hs : Shape c.system x r.spectral_modifier)
    (hm : Shape c.system x r.aoi_modifier) : ∃ v, r' = { r with effective_irradiance := v } ∧
      Shape c.system x v ∧ ∀ k a ti sm iam, c.system.arrays[k]? = some a → part k r.total_irrad = some ti →
        part k r.spectral_modifier = some sm → part k r.aoi_modifier = some iam → ∃ e, part k v = some e ∧
        ∃ direct diffuse fd, ti.cols.get? "poa_direct" = some direct ∧ ti.cols.get? "poa_diffuse" = some diffuse ∧
          fdOf a = .ok fd ∧ ∀ i, e i = sm i * (direct i * iam i + fd * diffuse i) := by
  unbind ti h1
  unbind sm h2
  unbind am h3
  have h1 := need_ok h1
  have h2 := need_ok h2
  have h3 := need_ok h3
  rw [h1] at ht
  rw [h2] at hs
  rw [h3] at hm
  cases ti with
  | tuple tis =>
    obtain ⟨l1, nb⟩ := shape_tuple ht
    simp only at h
    unbind sms g2
    unbind ams g3
    unbind es g4
    have h := Except.ok.inj h
    obtain rfl := ofPer_ok g2
    obtain rfl := ofPer_ok g3
    have l2 := (shape_tuple hs).1
    have l3 := (shape_tuple hm).1
    obtain ⟨l4, hg⟩ := collect_get g4
    refine ⟨_, h.symm, ?_, fun k a ti sm iam ha hti hsm hiam => ?_⟩
    · exact tuple_shape (by simp [l4, l1, l2, l3]) nb
    · rw [h1] at hti
      rw [h2] at hsm
      rw [h3] at hiam
      obtain ⟨e, he, h6⟩ := hg k _ (zip_get ha (zip_get hti (zip_get hsm hiam)))
      exact ⟨e, he, effIrrad_spec h6⟩
  | one ti =>
    obtain ⟨hb, hn⟩ := shape_one ht
    obtain ⟨a, har⟩ := List.length_eq_one_iff.mp hn
    rw [har] at h
    cases sm with
    | tuple sm => simp at h
    | one sm => cases am with
      | tuple am => simp at h
      | one am =>
        simp only at h
        unbind e g
        have h := Except.ok.inj h
        refine ⟨_, h.symm, ?_, fun k a' ti' sm' iam' ha hti hsm hiam => ?_⟩
        · rw [Shape, if_pos ⟨hb, by simp [har]⟩, hsi, single_bare hb]
          exact ⟨_, rfl⟩
        · obtain rfl : k = 0 := by have := lt_of_get ha; rw [har] at this; simpa using this
          simp only [har, List.getElem?_cons_zero, Option.some.injEq] at ha
          rw [h1] at hti
          rw [h2] at hsm
          rw [h3] at hiam
          simp only [part, Option.some.injEq] at hti hsm hiam
          subst ha hti hsm hiam
          exact ⟨e, by rw [hsi, single_bare hb]; rfl, effIrrad_spec g⟩

/-! ### Steps: cell temperature -/

/-- Every plane-of-array frame has the global irradiance. -/
def AllPoa (v : Option (PerArray DF)) : Prop := ∀ k ti, part k v = some ti → ti.cols.get? "poa_global" ≠ none

theorem irrad_spec {sys : System} {x : Input} {ti : PerArray DF} {eff : Option (PerArray Ser)} {poa : PerArray Ser}
    (h : irradForCelltemp ti eff = .ok poa) (ht : Shape sys x (some ti)) (he : Shape sys x eff) :
    Shape sys x (some poa) ∧ ∀ k d e, part k (some ti) = some d → part k eff = some e → ∃ p, part k (some poa) = some p ∧
      p = if AllPoa (some ti) then colOr d "poa_global" nan else e := by
  have he' : ¬ AllPoa (some ti) → need eff = .ok poa → Shape sys x (some poa) ∧ ∀ k d e, part k (some ti) = some d →
      part k eff = some e → ∃ p, part k (some poa) = some p ∧ p = if AllPoa (some ti) then colOr d "poa_global" nan else e := by
    intro hn h
    have h := need_ok h
    subst h
    exact ⟨he, fun k d e _ h2 => ⟨e, h2, by rw [if_neg hn]⟩⟩
  cases ti with
  | tuple dfs =>
    simp only [irradForCelltemp] at h
    by_cases hall : (dfs.all fun d => d.has "poa_global") = true
    · rw [if_pos hall] at h
      have ha : AllPoa (some (.tuple dfs)) := by
        intro k d hd
        have := (List.all_eq_true.mp hall) d (List.mem_of_getElem? hd)
        simpa [DF.has, Option.isSome_iff_ne_none] using this
      have h' := h
      obtain ⟨zs, h1, h2⟩ := bind_ok h
      injection h2 with h2
      subst h2
      have := collect_get h1
      refine ⟨tuple_shape (by rw [this.1, (shape_tuple ht).1]) (shape_tuple ht).2, fun k d e h1 h2 => ?_⟩
      obtain ⟨z, z1, z2⟩ := cols_part h' k h1
      exact ⟨z, z2, by rw [if_pos ha, colOr, z1]; rfl⟩
    · rw [if_neg hall] at h
      refine he' (fun ha => hall (List.all_eq_true.mpr fun d hd => ?_)) h
      obtain ⟨j, hj⟩ := List.getElem?_of_mem hd
      simpa [DF.has, Option.isSome_iff_ne_none] using ha j d hj
  | one df =>
    simp only [irradForCelltemp] at h
    by_cases hall : df.has "poa_global" = true
    · rw [if_pos hall] at h
      have ha : AllPoa (some (.one df)) := by
        intro k d hd
        simp only [part, Option.some.injEq] at hd
        subst hd
        simpa [DF.has, Option.isSome_iff_ne_none] using hall
      have h' := h
      obtain ⟨zs, h1, h2⟩ := bind_ok h
      injection h2 with h2
      subst h2
      refine ⟨?_, fun k d e h1 h2 => ?_⟩
      · rw [Shape, if_pos (shape_one ht)]; exact ⟨_, rfl⟩
      · obtain ⟨z, z1, z2⟩ := cols_part h' k h1
        exact ⟨z, z2, by rw [if_pos ha, colOr, z1]; rfl⟩
    · rw [if_neg hall] at h
      refine he' (fun ha => hall ?_) h
      simpa [DF.has, Option.isSome_iff_ne_none] using ha 0 df rfl

theorem part_map {α β : Type} (f : α → β) (v : PerArray α) (k : ℕ) :
    part k (some (PerArray.map f v)) = (part k (some v)).map f := by
  cases v <;> simp [PerArray.map, part]

theorem runTemp_spec {c : Chain} {s : Site} {x : Input} {r r' : Results} {times : List ℝ}
    (h : runTemp c s r = .ok r') (hx : Bare x ∨ Matches c.system x)
    (ht : Shape c.system x r.total_irrad) (he : Shape c.system x r.effective_irradiance) (h3 : r.times = some times)
    (h5 : r.weather = some (wrapIf (single c.system x) (PerArray.map buildWeather (toTuple x))))
    (hsi : r.singleton = single c.system x) : ∃ v, r' = { r with cell_temperature := v } ∧ Shape c.system x v ∧
      ∀ k a w ti e, c.system.arrays[k]? = some a → frameFor x k = some w → part k r.total_irrad = some ti →
        part k r.effective_irradiance = some e → ∃ t, part k v = some t ∧
          a.getCellTemperature s.sigma ⟨if AllPoa r.total_irrad then colOr ti "poa_global" nan else e,
            colOr w "temp_air" 20, colOr w "wind_speed" 0,
            if c.temp = .noct_sam then some e else none, none, hoursOf times⟩ c.temp.name = .ok t := by
  unbind ti h1
  unbind poa h2
  unbind w' e5
  unbind ta g1
  unbind ws g2
  unbind ei g3
  unbind times' e3
  unbind t ht'
  have h := Except.ok.inj h
  obtain rfl := need_eq e3 h3
  obtain rfl := need_eq e5 h5
  have h1 := need_ok h1
  rw [h1] at ht
  obtain ⟨_, hpoa⟩ := irrad_spec h2 ht he
  unfold System.getCellTemperature at ht'
  obtain ⟨poas, v1, ht'⟩ := bind_ok ht'
  obtain ⟨tas, v2, ht'⟩ := bind_ok ht'
  obtain ⟨wss, v3, ht'⟩ := bind_ok ht'
  obtain ⟨eis, v4, ht'⟩ := bind_ok ht'
  obtain ⟨lws, v5, ht'⟩ := bind_ok ht'
  rw [unwrapped_ok_iff] at ht'
  obtain ⟨ys, hm, rfl⟩ := ht'
  obtain ⟨l1, p1⟩ := validate_part v1
  obtain ⟨l2, p2⟩ := validate_part v2
  obtain ⟨l3, p3⟩ := validate_part v3
  obtain ⟨l4, p4⟩ := validate_part v4
  obtain ⟨l5, p5⟩ := validate_part v5
  have hm := (map_zip_iff _ _ _ (by simp [l1, l2, l3, l4, l5]) _).mp hm
  obtain ⟨f1, f2⟩ := finish c.system x ys hm.1
  refine ⟨_, h.symm, by rw [hsi]; exact f1, fun k a w d e ha hw hd hee => ?_⟩
  rw [h1] at hd ⊢
  have hk := lt_of_get ha
  obtain ⟨y, hy⟩ := get_lt (as := ys) (k := k) (by omega)
  have hpw : part k (some (wrapIf (single c.system x) (PerArray.map buildWeather (toTuple x)))) = some (buildWeather w) := by
    rw [part_input, hw]; rfl
  obtain ⟨z1, a1, b1⟩ := cols_part g1 k hpw
  obtain ⟨z2, a2, b2⟩ := cols_part g2 k hpw
  rw [weather_temp] at a1
  rw [weather_wind] at a2
  obtain rfl := Option.some.inj a1
  obtain rfl := Option.some.inj a2
  rw [p2 k hk] at b1
  rw [p3 k hk] at b2
  obtain ⟨p, b3, rfl⟩ := hpoa k d e hd hee
  rw [p1 k hk] at b3
  have b4 : eis[k]? = some (if c.temp = .noct_sam then some e else none) := by
    rw [← p4 k hk]
    by_cases hn : c.temp = .noct_sam
    · rw [if_pos hn] at g3 ⊢
      obtain ⟨e', e1, e2⟩ := bind_ok g3
      injection e2 with e2
      subst e2
      rw [part_map, ← need_ok e1, hee]; rfl
    · rw [if_neg hn] at g3 ⊢
      injection g3 with g3
      subst g3; rfl
  have b5 : lws[k]? = some none := by rw [← p5 k hk]; rfl
  exact ⟨y, by rw [hsi, f2 k hk, hy], hm.2 k a _ y ha (zip_get b3 (zip_get b1 (zip_get b2 (zip_get b4 b5)))) hy⟩

theorem given_spec {c : Chain} {s : Site} {times : List ℝ} {a : PvArr} {w : DF} {poa e : Ser} {g : Option Ser}
    (h : givenCellTemperature c w poa a.temperature_model_parameters = .ok g) :
    (∀ t, g = some t → CellSpec c s times a w poa e t) ∧
    (g = none → ∀ t, a.getCellTemperature s.sigma ⟨poa, colOr w "temp_air" 20, colOr w "wind_speed" 0,
        if c.temp = .noct_sam then some e else none, none, hoursOf times⟩ c.temp.name = .ok t → CellSpec c s times a w poa e t) := by
  unfold givenCellTemperature at h
  unfold CellSpec
  cases h1 : w.cols.get? "cell_temperature" with
  | some t' =>
    rw [h1] at h
    have h := Except.ok.inj h
    subst h
    simp
  | none =>
    rw [h1] at h
    dsimp only at h ⊢
    by_cases hs : c.temp = .sapm
    · simp only [hs, if_true] at h ⊢
      cases h2 : w.cols.get? "module_temperature" with
      | none =>
        rw [h2] at h
        have h := Except.ok.inj h
        subst h
        simp
      | some m =>
        rw [h2] at h
        obtain ⟨dT, h3, h⟩ := bind_ok h
        have h := Except.ok.inj h
        subst h
        refine ⟨fun t ht => ?_, by simp⟩
        have ht := Option.some.inj ht
        exact ⟨dT, h3, fun i => by rw [← ht]⟩
    · simp only [hs, if_false] at h ⊢
      cases h2 : w.cols.get? "module_temperature" with
      | none =>
        rw [h2] at h
        have h := Except.ok.inj h
        subst h
        simp
      | some m =>
        rw [h2] at h
        have h := Except.ok.inj h
        subst h
        simp

/-- The loop over the arrays of `_prepare_temperature`. -/
def manyTemps (c : Chain) (s : Site) (r : Results) (poa : PerArray Ser) (dfs : List DF) : Except PyErr Results :=
  (ofPer poa).bind fun poa =>
  (collect ((dfs.zip (poa.zip (c.system.arrays.map PvArr.temperature_model_parameters))).map fun p =>
    givenCellTemperature c p.1 p.2.1 p.2.2)).bind fun given =>
  if given.all Option.isSome then .ok { r with cell_temperature := some (.tuple (given.filterMap id)) }
  else (runTemp c s r).bind fun r => (need r.cell_temperature).bind fun t => (ofPer t).bind fun t =>
    .ok { r with cell_temperature := some (.tuple ((given.zip t).map fun p => p.1.getD p.2)) }

theorem filterMap_all {α : Type} (l : List (Option α)) (h : l.all Option.isSome = true) :
    (l.filterMap id).length = l.length ∧ ∀ (k : ℕ) x, l[k]? = some (some x) → (l.filterMap id)[k]? = some x := by
  induction l with
  | nil => simp
  | cons y l ih =>
    cases y with
    | none => simp at h
    | some y =>
      simp only [List.all_cons, Option.isSome_some, Bool.true_and] at h
      obtain ⟨i1, i2⟩ := ih h
      refine ⟨congrArg (· + 1) i1, fun k x hx => ?_⟩
      cases k with
      | zero => simpa using hx
      | succ k => simpa using i2 k x (by simpa using hx)

section Temp
variable {c : Chain} {s : Site} {x : Input} {r : Results} {times : List ℝ}

/-- The cell temperatures that the run leaves. -/
def TempsDone (c : Chain) (s : Site) (x : Input) (r r' : Results) (times : List ℝ) : Prop :=
  ∃ v, r' = { r with cell_temperature := v } ∧ Shape c.system x v ∧
    ∀ k a w ti e, c.system.arrays[k]? = some a → frameFor x k = some w → part k r.total_irrad = some ti →
      part k r.effective_irradiance = some e → ∃ t, part k v = some t ∧
        CellSpec c s times a w (if AllPoa r.total_irrad then colOr ti "poa_global" nan else e) e t

theorem manyTemps_spec {r' : Results} {ti0 : PerArray DF} {poa : PerArray Ser} {dfs : List DF} (h : manyTemps c s r poa dfs = .ok r')
    (hx : Bare x ∨ Matches c.system x) (hnb : ¬ (Bare x ∧ c.system.arrays.length = 1))
    (hdl : dfs.length = c.system.arrays.length)
    (hdf : ∀ k w, k < c.system.arrays.length → frameFor x k = some w → dfs[k]? = some w)
    (hpoa : irradForCelltemp ti0 r.effective_irradiance = .ok poa) (hti : r.total_irrad = some ti0)
    (ht : Shape c.system x r.total_irrad) (he : Shape c.system x r.effective_irradiance) (h3 : r.times = some times)
    (h5 : r.weather = some (wrapIf (single c.system x) (PerArray.map buildWeather (toTuple x))))
    (hsi : r.singleton = single c.system x) : TempsDone c s x r r' times := by
  have ht' := ht
  rw [hti] at ht'
  obtain ⟨hps, hp⟩ := irrad_spec hpoa ht' he
  unfold manyTemps at h
  unbind poas g1
  unbind given g2
  obtain rfl := ofPer_ok g1
  have hpl := (shape_tuple hps).1
  obtain ⟨l1, hg⟩ := collect_get g2
  have l1 : given.length = c.system.arrays.length := by rw [l1]; simp [hdl, hpl]
  -- what is known of one array
  have key : ∀ k a w ti e, c.system.arrays[k]? = some a → frameFor x k = some w → part k r.total_irrad = some ti →
      part k r.effective_irradiance = some e → ∃ g, given[k]? = some g ∧ givenCellTemperature c w
        (if AllPoa r.total_irrad then colOr ti "poa_global" nan else e) a.temperature_model_parameters = .ok g := by
    intro k a w ti e ha hw hd hee
    rw [hti] at hd ⊢
    obtain ⟨p, p1, rfl⟩ := hp k ti e hd hee
    have := hg k _ (zip_get (hdf k w (lt_of_get ha) hw) (zip_get p1 (by rw [List.getElem?_map, ha]; rfl)))
    exact this
  by_cases hall : given.all Option.isSome = true
  · rw [if_pos hall] at h
    have h := Except.ok.inj h
    obtain ⟨m1, m2⟩ := filterMap_all given hall
    refine ⟨_, h.symm, tuple_shape (by rw [m1, l1]) hnb, fun k a w ti e ha hw hd hee => ?_⟩
    obtain ⟨g, g3, g4⟩ := key k a w ti e ha hw hd hee
    have : g.isSome = true := (List.all_eq_true.mp hall) g (List.mem_of_getElem? g3)
    obtain ⟨t, rfl⟩ := Option.isSome_iff_exists.mp this
    exact ⟨t, m2 k t g3, (given_spec g4).1 t rfl⟩
  · rw [if_neg hall] at h
    unbind r1 q1
    unbind t q2
    unbind ts q3
    obtain rfl := ofPer_ok q3
    have h := Except.ok.inj h
    obtain ⟨v, rfl, v1, v2⟩ := runTemp_spec q1 hx ht he h3 h5 hsi
    have q2 := need_ok q2
    dsimp only at q2
    subst q2
    have l2 := (shape_tuple v1).1
    refine ⟨_, h.symm, tuple_shape (by simp [l1, l2]) hnb, fun k a w ti e ha hw hd hee => ?_⟩
    obtain ⟨g, g3, g4⟩ := key k a w ti e ha hw hd hee
    obtain ⟨t, t1, t2⟩ := v2 k a w ti e ha hw hd hee
    refine ⟨g.getD t, ?_, ?_⟩
    · simp only [part, List.getElem?_map]
      rw [zip_get g3 t1]; rfl
    · cases g with
      | none => exact (given_spec g4).2 rfl t t2
      | some t' => exact (given_spec g4).1 t' rfl

theorem temperature_spec {r' : Results} (h : prepareTemperature c s (toTuple x) r = .ok r')
    (hx : Bare x ∨ Matches c.system x)
    (ht : Shape c.system x r.total_irrad) (he : Shape c.system x r.effective_irradiance) (h3 : r.times = some times)
    (h5 : r.weather = some (wrapIf (single c.system x) (PerArray.map buildWeather (toTuple x))))
    (hsi : r.singleton = single c.system x) : TempsDone c s x r r' times := by
  unfold prepareTemperature at h
  unbind ti0 g1
  unbind poa g2
  have g1 := need_ok g1
  have tup : ∀ ds, x = .tuple ds ∨ x = .list ds → manyTemps c s r poa ds = .ok r' → TempsDone c s x r r' times := by
    intro ds hds h
    have hm : Matches c.system x := by
      rcases hx with hb | hm
      · rcases hds with rfl | rfl <;> simp [Bare] at hb
      · exact hm
    have hb : ¬ Bare x := by rcases hds with rfl | rfl <;> simp [Bare]
    refine manyTemps_spec (ti0 := ti0) h hx (fun hh => hb hh.1) ?_ ?_ g2 g1 ht he h3 h5 hsi
    · rcases hds with rfl | rfl <;> exact hm.1
    · intro k w _ hw; rcases hds with rfl | rfl <;> exact hw
  cases x with
  | tuple ds => exact tup ds (.inl rfl) h
  | list ds => exact tup ds (.inr rfl) h
  | frame d =>
    simp only [toTuple] at h
    by_cases hn : c.system.arrays.length = 1
    · rw [if_pos hn] at h
      obtain ⟨a, har⟩ := List.length_eq_one_iff.mp hn
      rw [har] at h
      have hb : Bare (.frame d) := by simp [Bare]
      rw [g1] at ht
      obtain ⟨hps, hp⟩ := irrad_spec g2 ht he
      cases poa with
      | tuple ps => exact absurd (shape_tuple hps).2 (by simp [hb, hn])
      | one p0 =>
        simp only at h
        obtain ⟨g, q1, h⟩ := bind_ok h
        have k0 : ∀ (k : ℕ) a', c.system.arrays[k]? = some a' → a' = a := by
          intro k a' ha
          have hk := lt_of_get ha
          obtain rfl : k = 0 := by omega
          rw [har] at ha; simpa using ha.symm
        cases g with
        | some t =>
          have h := Except.ok.inj h
          refine ⟨_, h.symm, ?_, fun k a' w ti e ha hw hd hee => ?_⟩
          · rw [Shape, if_pos ⟨hb, hn⟩, hsi, single_bare hb]; exact ⟨_, rfl⟩
          · obtain rfl := k0 k a' ha
            rw [g1] at hd ⊢
            obtain ⟨p, p1, rfl⟩ := hp k ti e hd hee
            have p1 := Option.some.inj p1
            have hw := Option.some.inj hw
            subst hw p1
            exact ⟨t, by rw [hsi, single_bare hb]; rfl, (given_spec q1).1 t rfl⟩
        | none =>
          obtain ⟨v, rfl, v1, v2⟩ := runTemp_spec (x := .frame d) h hx (by rw [← g1] at ht; exact ht) he h3 h5 hsi
          refine ⟨v, rfl, v1, fun k a' w ti e ha hw hd hee => ?_⟩
          obtain ⟨t, t1, t2⟩ := v2 k a' w ti e ha hw hd hee
          refine ⟨t, t1, ?_⟩
          obtain rfl := k0 k a' ha
          rw [g1] at hd ⊢
          dsimp only at t2
          rw [g1] at t2
          obtain ⟨p, p1, rfl⟩ := hp k ti e hd hee
          have p1 := Option.some.inj p1
          have hw := Option.some.inj hw
          subst hw p1
          exact (given_spec q1).2 rfl t t2
    · rw [if_neg hn] at h
      refine manyTemps_spec (ti0 := ti0) h hx (fun hh => hn hh.2) (by simp) ?_ g2 g1 ht he h3 h5 hsi
      intro k w hk hw
      rw [← hw]; simp [frameFor, hk]

end Temp

/-! ### Steps: DC -/

theorem get_filter {α : Type} (d : PyDict α) (keys : List String) (g : α → α) (k : String) :
    PyDict.get? (((d.filter fun c => decide (c.1 ∈ keys)).map fun c => (c.1, g c.2) : PyDict α)) k =
      if k ∈ keys then (d.get? k).map g else none := by
  induction d with
  | nil => simp [PyDict.get?]
  | cons x d ih =>
    obtain ⟨n, v⟩ := x
    by_cases hn : n ∈ keys
    · rw [List.filter_cons_of_pos (by simpa using hn), List.map_cons]
      show (if n = k then some (g v) else _) = if k ∈ keys then (if n = k then some v else PyDict.get? d k).map g else none
      by_cases h : n = k
      · subst h; simp [hn]
      · rw [if_neg h, if_neg h]; exact ih
    · rw [List.filter_cons_of_neg (by simpa using hn)]
      show _ = if k ∈ keys then (if n = k then some v else PyDict.get? d k).map g else none
      by_cases h : n = k
      · subst h; rw [ih]; simp [hn]
      · rw [if_neg h]; exact ih

theorem get_map {α β : Type} (d : PyDict α) (g : String → α → β) (k : String) :
    PyDict.get? (d.map fun c => (c.1, g c.1 c.2) : PyDict β) k = (d.get? k).map (g k) := by
  induction d with
  | nil => simp [PyDict.get?]
  | cons x d ih =>
    obtain ⟨n, v⟩ := x
    show (if n = k then some (g n v) else _) = (if n = k then some v else PyDict.get? d k).map (g k)
    by_cases h : n = k
    · subst h; simp
    · rw [if_neg h, if_neg h]; exact ih

theorem mem_of_get {α : Type} {data : PyDict α} {name : String} {v : α} (hd : data.get? name = some v) :
    (name, v) ∈ data := by
  induction data with
  | nil => simp [PyDict.get?] at hd
  | cons y data ih =>
    obtain ⟨n, u⟩ := y
    have : (if n = name then some u else PyDict.get? data name) = some v := hd
    split_ifs at this with hn
    · simp only [Option.some.injEq] at this; simp [hn, this]
    · exact List.mem_cons_of_mem _ (ih this)

theorem keep_get (data df : PyDict Ser) (name : String)
    (hnone : (data.find? fun c => decide ((df.get? c.1).isNone)) = none) :
    PyDict.get? (data.map fun c => (c.1, (df.get? c.1).getD fun _ => nan)) name = (data.get? name).bind fun _ => df.get? name := by
  have e : PyDict.get? (data.map fun c => (c.1, (df.get? c.1).getD fun _ => nan)) name =
      (data.get? name).map fun _ => (df.get? name).getD fun _ => nan :=
    get_map data (fun n _ => (df.get? n).getD fun _ => nan) name
  rw [e]
  cases hd : data.get? name with
  | none => rfl
  | some v =>
    have := List.find?_eq_none.mp hnone (name, v) (mem_of_get hd)
    simp only [decide_eq_true_eq, Option.isNone_iff_eq_none] at this
    obtain ⟨w, hw⟩ := Option.ne_none_iff_exists'.mp this
    simp [hw]

theorem scaleCols_spec {a : PvArr} {data out : PyDict Ser}
    (h : scaleCols data a.modules_per_string a.strings = .ok out) (name : String) :
    out.get? name = (data.get? name).map fun v i => scaledBy a name (v i) := by
  unfold scaleCols at h
  dsimp only at h
  split at h
  · simp at h
  · next hnone =>
    have h := Except.ok.inj h
    subst h
    refine (keep_get data _ name hnone).trans ?_
    cases hd : data.get? name with
    | none => rfl
    | some v =>
      have hne := List.find?_eq_none.mp hnone (name, v) (mem_of_get hd)
      simp only [decide_eq_true_eq, Option.isNone_iff_eq_none] at hne
      revert hne
      simp only [Option.bind_some, get_append, get_filter data _ (fun (s : Ser) i => s i * a.modules_per_string),
        get_filter data _ (fun (s : Ser) i => s i * a.strings),
        get_filter data _ (fun (s : Ser) i => s i * a.modules_per_string * a.strings), hd, Option.map_some]
      unfold scaledBy
      by_cases h1 : name ∈ ["v_mp", "v_oc"]
      · simp only [h1, if_true]
        intro _; rfl
      · by_cases h2 : name ∈ ["i_mp", "i_x", "i_xx", "i_sc"]
        · simp only [h1, h2, if_true, if_false]
          intro _; rfl
        · by_cases h3 : name ∈ ["p_mp"]
          · simp only [h1, h2, h3, if_true, if_false]
            intro _; rfl
          · simp only [h1, h2, h3, if_false]
            intro hh; exact absurd rfl hh

/-- `dcArgs` as the parts of the arrays. -/
theorem dcArgs_spec {c : Chain} {r : Results} {args : List (PvArr × Ser × Ser)} (h : dcArgs c r = .ok args) :
    args.length = c.system.arrays.length ∧ ∀ k a e t, c.system.arrays[k]? = some a → part k r.effective_irradiance = some e →
      part k r.cell_temperature = some t → args[k]? = some (a, e, t) := by
  unbind e h1
  unbind t h2
  unbind es v1
  unbind ts v2
  have h := Except.ok.inj h
  subst h
  obtain ⟨l1, p1⟩ := validate_part v1
  obtain ⟨l2, p2⟩ := validate_part v2
  refine ⟨by simp [l1, l2], fun k a e' t' ha he ht => ?_⟩
  have hk := lt_of_get ha
  rw [need_ok h1, p1 k hk] at he
  rw [need_ok h2, p2 k hk] at ht
  exact zip_get ha (zip_get he ht)

/-- The DC results that a step leaves. -/
def DcDone (c : Chain) (s : Site) (x : Input) (r r' : Results) : Prop :=
  ∃ v w, r' = { r with dc := v, diode_params := w } ∧ Shape c.system x v ∧
    ∀ k a e t, c.system.arrays[k]? = some a → part k r.effective_irradiance = some e → part k r.cell_temperature = some t →
      ∃ d, part k v = some d ∧ DcSpec c s a e t d

theorem setDc_spec {c : Chain} {s : Site} {x : Input} {r : Results} {ds : List Dc} (w : Option (PerArray (ℕ → Five)))
    (hl : ds.length = c.system.arrays.length) (hsi : r.singleton = single c.system x)
    (hd : ∀ k a e t, c.system.arrays[k]? = some a → part k r.effective_irradiance = some e → part k r.cell_temperature = some t →
      ∃ d, ds[k]? = some d ∧ DcSpec c s a e t d) : DcDone c s x r { setDc r c.system ds with diode_params := w } := by
  obtain ⟨f1, f2⟩ := finish c.system x ds hl
  refine ⟨some (wrapIf r.singleton (PerArray.ofResult (unwrapValue (decide (c.system.arrays.length = 1)) ds))), w, rfl, ?_,
    fun k a e t ha he ht => ?_⟩
  · rw [hsi, unwrap_len _ _ hl]; exact f1
  · rw [hsi, unwrap_len _ _ hl, f2 k (lt_of_get ha)]
    exact hd k a e t ha he ht

theorem dc_spec {c : Chain} {s : Site} {x : Input} {r r' : Results} (h : runDc c s r = .ok r')
    (hsi : r.singleton = single c.system x) : DcDone c s x r r' := by
  have diode : ∀ m, c.dc = some m → m ≠ .sapm → m ≠ .pvwatts → runSinglediode c s (diodeParams m) r = .ok r' →
      DcDone c s x r r' := by
    intro m hm n1 n2 h
    unbind args g1
    unbind params g2
    unbind frames g3
    unbind scaled g4
    have h := Except.ok.inj h
    subst h
    obtain ⟨l1, p1⟩ := dcArgs_spec g1
    obtain ⟨l2, p2⟩ := collect_get g2
    obtain ⟨l3, p3⟩ := collect_get g3
    obtain ⟨l4, p4⟩ := collect_get g4
    refine setDc_spec _ (by simp [l4, l3, l2, l1]) hsi fun k a e t ha he ht => ?_
    obtain ⟨q, q1, q2⟩ := p2 k _ (p1 k a e t ha he ht)
    obtain ⟨f, q3, q4⟩ := p3 k _ q1
    obtain ⟨o, o1, o2⟩ := bind_ok q4
    obtain ⟨g, q5, q6⟩ := p4 k _ (zip_get ha q3)
    have o2 := Except.ok.inj o2
    subst o2
    refine ⟨_, by rw [List.getElem?_map, q5]; rfl, ?_⟩
    have main : ∃ (f : PyDict Ser) (q' : ℕ → Five) (o : ℕ → SevenPoints),
        Dc.frame (g.map fun col => (col.1, fun i => fillna0 (col.2 i))) = .frame f ∧
        (∀ i, diodeParams m a (e i) (t i) = .ok (q' i)) ∧ (∀ i, singlediode s.numerics (q' i) = .ok (o i)) ∧
        ∀ name, f.get? name = ((diodeFrame o).get? name).map fun v i => fillna0 (scaledBy a name (v i)) := by
      refine ⟨_, q, o, rfl, gather_ok q2, gather_ok o1, fun name => ?_⟩
      have e1 : PyDict.get? (g.map fun col => (col.1, fun i => fillna0 (col.2 i))) name =
          (g.get? name).map fun v i => fillna0 (v i) := get_map g (fun _ v i => fillna0 (v i)) name
      rw [e1, scaleCols_spec q6]
      cases (diodeFrame o).get? name <;> rfl
    unfold DcSpec
    rw [hm]
    cases m with
    | sapm => exact absurd rfl n1
    | pvwatts => exact absurd rfl n2
    | desoto => exact main
    | cec => exact main
    | pvsyst => exact main
  unfold runDc at h
  cases hm : c.dc with
  | none => rw [hm] at h; simp at h
  | some m =>
    rw [hm] at h
    cases m with
    | desoto => exact diode _ hm (by simp) (by simp) h
    | cec => exact diode _ hm (by simp) (by simp) h
    | pvsyst => exact diode _ hm (by simp) (by simp) h
    | sapm =>
      simp only at h
      unbind args g1
      unbind frames g3
      unbind scaled g4
      have h := Except.ok.inj h
      subst h
      obtain ⟨l1, p1⟩ := dcArgs_spec g1
      obtain ⟨l3, p3⟩ := collect_get g3
      obtain ⟨l4, p4⟩ := collect_get g4
      refine setDc_spec r.diode_params (by simp [l4, l3, l1]) hsi fun k a e t ha he ht => ?_
      obtain ⟨f, q3, q4⟩ := p3 k _ (p1 k a e t ha he ht)
      obtain ⟨o, o1, o2⟩ := bind_ok q4
      obtain ⟨g, q5, q6⟩ := p4 k _ (zip_get ha q3)
      have o2 := Except.ok.inj o2
      subst o2
      refine ⟨_, by rw [List.getElem?_map, q5]; rfl, ?_⟩
      unfold DcSpec
      rw [hm]
      exact ⟨g, o, rfl, gather_ok o1, fun name => scaleCols_spec q6 name⟩
    | pvwatts =>
      simp only at h
      unbind args g1
      unbind dc g3
      unbind scaled g4
      unbind ps g5
      have h := Except.ok.inj h
      subst h
      obtain ⟨l1, p1⟩ := dcArgs_spec g1
      obtain ⟨l3, p3⟩ := collect_get g3
      obtain ⟨l4, p4⟩ := collect_get g4
      obtain ⟨l5, p5⟩ := collect_get g5
      refine setDc_spec r.diode_params (by simp [l5, l4, l3, l1]) hsi fun k a e t ha he ht => ?_
      obtain ⟨q, q3, q4⟩ := p3 k _ (p1 k a e t ha he ht)
      obtain ⟨g, q5, q6⟩ := p4 k _ (zip_get ha q3)
      obtain ⟨p, q7, q8⟩ := p5 k _ q5
      refine ⟨_, by rw [List.getElem?_map, q7]; rfl, ?_⟩
      unfold DcSpec
      rw [hm]
      refine ⟨p, q, rfl, fun i => ⟨gather_ok q4 i, ?_⟩⟩
      have := scaleCols_spec q6 "p_mp"
      rw [argOf_ok q8] at this
      simp only [PyDict.get?, if_true, Option.map_some, Option.some.injEq] at this
      rw [this]

/-! ### Steps: losses and AC -/

theorem get_set {α : Type} (d : PyDict α) (key : String) (v : α) (k : String) :
    (d.set key v).get? k = if k = key then some v else d.get? k := by
  induction d with
  | nil =>
    show (if key = k then some v else none) = _
    by_cases h : k = key
    · subst h; simp
    · simp [h, Ne.symm h, PyDict.get?]
  | cons y d ih =>
    obtain ⟨n, w⟩ := y
    unfold PyDict.set
    by_cases hn : n = key
    · rw [if_pos hn]
      show (if n = k then some v else PyDict.get? d k) = if k = key then some v else if n = k then some w else PyDict.get? d k
      subst hn
      by_cases h : k = n
      · subst h; simp
      · simp [h, Ne.symm h]
    · rw [if_neg hn]
      show (if n = k then some w else PyDict.get? (PyDict.set d key v) k) = if k = key then some v else if n = k then some w else PyDict.get? d k
      rw [ih]
      by_cases h : n = k
      · subst h; simp [hn]
      · simp [h]

theorem ohmicOne_spec {c : Chain} {a : PvArr} {ohms : Fl} {d : Dc} {v : Ser × Dc} (hc : c.ohmic = .dc_ohms_from_percent)
    (ha : a.dcOhms = .ok ohms) (h : ohmicOne ohms d = .ok v) : OhmicSpec c a d v.2 := by
  unfold OhmicSpec
  rw [hc]
  unbind i_mp h1
  unbind p h2
  have h := Except.ok.inj h
  subst h
  cases d with
  | series q => simp [Dc.col] at h1
  | frame f =>
    refine ⟨f, _, i_mp, p, ohms, rfl, rfl, ha, argOf_ok h1, argOf_ok h2, ?_, fun name hn => ?_⟩
    · rw [get_set, if_pos rfl]; rfl
    · rw [get_set, if_neg hn]

theorem ohmic_spec {c : Chain} {x : Input} {r r' : Results} (h : runOhmic c r = .ok r')
    (hsi : r.singleton = single c.system x) (hd : Shape c.system x r.dc) : ∃ v w, r' = { r with dc := v, dc_ohmic_losses := w } ∧
      Shape c.system x v ∧ ∀ k a d, c.system.arrays[k]? = some a → part k r.dc = some d →
        ∃ d', part k v = some d' ∧ OhmicSpec c a d d' := by
  unfold runOhmic at h
  cases hc : c.ohmic with
  | no_loss =>
    rw [hc] at h
    have h := Except.ok.inj h
    subst h
    exact ⟨r.dc, r.dc_ohmic_losses, rfl, hd, fun k a d _ h2 => ⟨d, h2, by simp [OhmicSpec, hc]⟩⟩
  | dc_ohms_from_percent =>
    rw [hc] at h
    simp only at h
    unbind dc h1
    have h1 := need_ok h1
    rw [h1] at hd
    cases dc with
    | tuple ds =>
      simp only at h
      unbind ohms g1
      unbind vs g2
      have h := Except.ok.inj h
      obtain ⟨l1, p1⟩ := collect_get g1
      obtain ⟨l2, p2⟩ := collect_get g2
      obtain ⟨ld, nb⟩ := shape_tuple hd
      refine ⟨_, _, h.symm, tuple_shape (by simp [l2, l1, ld]) nb, fun k a d ha hk => ?_⟩
      rw [h1] at hk
      obtain ⟨o, o1, o2⟩ := p1 k a ha
      obtain ⟨v, v1, v2⟩ := p2 k _ (zip_get o1 hk)
      exact ⟨v.2, by simp only [part, List.getElem?_map, v1]; rfl, ohmicOne_spec hc o2 v2⟩
    | one d0 =>
      obtain ⟨hb, hn⟩ := shape_one hd
      obtain ⟨a, har⟩ := List.length_eq_one_iff.mp hn
      rw [har] at h
      simp only at h
      unbind ohms g1
      unbind v g2
      have h := Except.ok.inj h
      refine ⟨_, _, h.symm, ?_, fun k a' d ha hk => ?_⟩
      · rw [Shape, if_pos ⟨hb, hn⟩, hsi, single_bare hb]; exact ⟨_, rfl⟩
      · have hk0 := lt_of_get ha
        obtain rfl : k = 0 := by omega
        rw [har] at ha
        simp only [List.getElem?_cons_zero, Option.some.injEq] at ha
        rw [h1] at hk
        simp only [part, Option.some.injEq] at hk
        subst ha hk
        exact ⟨v.2, by rw [hsi, single_bare hb]; rfl, ohmicOne_spec hc g1 g2⟩

theorem losses_spec {c : Chain} {x : Input} {r r' : Results} (h : runLosses c r = .ok r')
    (hsi : r.singleton = single c.system x) (hd : Shape c.system x r.dc) : ∃ v f, r' = { r with losses := some f, dc := v } ∧
      Shape c.system x v ∧ ∀ k d, part k r.dc = some d → ∃ d', part k v = some d' ∧ LossSpec c d d' f := by
  unfold runLosses at h
  cases hc : c.losses with
  | no_loss =>
    rw [hc] at h
    have h := Except.ok.inj h
    subst h
    exact ⟨r.dc, 1, rfl, hd, fun k d h2 => ⟨d, h2, by simp [LossSpec, hc]⟩⟩
  | pvwatts =>
    rw [hc] at h
    simp only at h
    unbind l g1
    unbind dc h1
    have h1 := need_ok h1
    have h := Except.ok.inj h
    have hsc : ∀ d : Dc, LossSpec c d (Dc.scale ((100 - l) / 100) d) ((100 - l) / 100) := by
      intro d
      unfold LossSpec
      rw [hc]
      refine ⟨l, g1, rfl, ?_⟩
      cases d with
      | series p => exact fun i => rfl
      | frame f => exact fun name => get_map f (fun _ v i => v i * ((100 - l) / 100)) name
    have hw : wrapIf r.singleton (PerArray.map (Dc.scale ((100 - l) / 100)) dc) = PerArray.map (Dc.scale ((100 - l) / 100)) dc := by
      rw [h1] at hd
      cases dc with
      | tuple ds => rfl
      | one d => rw [hsi, single_bare (shape_one hd).1]; rfl
    refine ⟨_, _, h.symm, ?_, fun k d hk => ?_⟩
    · rw [hw]
      rw [h1] at hd
      cases dc with
      | tuple ds => exact tuple_shape (by simp [(shape_tuple hd).1]) (shape_tuple hd).2
      | one d => rw [Shape, if_pos (shape_one hd)]; exact ⟨_, rfl⟩
    · rw [hw, part_map, ← h1, hk]
      exact ⟨_, rfl, hsc d⟩

theorem validate_one {α : Type} {sys : System} (hn : sys.arrays.length = 1) (x : α) :
    validatePerArray sys (.one x) = validatePerArray sys (.tuple [x]) := by
  simp [validatePerArray, hn]

theorem getAc_one {sys : System} (hn : sys.arrays.length = 1) (m : String) (p v : Fl) :
    sys.getAc m (.one p) (some (.one v)) = sys.getAc m (.tuple [p]) (some (.tuple [v])) ∧
    sys.getAc m (.one p) none = sys.getAc m (.tuple [p]) none := by
  simp only [System.getAc, validate_one hn, and_self]

theorem ac_spec {c : Chain} {x : Input} {r r' : Results} (h : runAc c r = .ok r') (hd : Shape c.system x r.dc) :
    ∃ ac dcs, r' = { r with ac := some ac } ∧ dcs.length = c.system.arrays.length ∧
      (∀ k, k < c.system.arrays.length → part k r.dc = dcs[k]?) ∧ AcSpec c dcs ac := by
  unfold runAc at h
  unbind dc h1
  have h1 := need_ok h1
  rw [h1] at hd
  have wrapUp : ∀ ac : Ser, r' = { r with ac := some ac } →
      (∀ d, dc = .one d → c.system.arrays.length = 1 → AcSpec c [d] ac) → (∀ ds, dc = .tuple ds → AcSpec c ds ac) →
      ∃ ac dcs, r' = { r with ac := some ac } ∧ dcs.length = c.system.arrays.length ∧
      (∀ k, k < c.system.arrays.length → part k r.dc = dcs[k]?) ∧ AcSpec c dcs ac := by
    intro ac hr ho ht
    cases dc with
    | one d =>
      have hn := (shape_one hd).2
      refine ⟨ac, [d], hr, by simp [hn], fun k hk => ?_, ho d rfl hn⟩
      obtain rfl : k = 0 := by omega
      rw [h1]; rfl
    | tuple ds => exact ⟨ac, ds, hr, (shape_tuple hd).1, fun k hk => by rw [h1]; rfl, ht ds rfl⟩
  cases hc : c.ac with
  | sandia =>
    rw [hc] at h
    simp only at h
    unbind p g1
    unbind v g2
    unbind ac g3
    refine wrapUp ac (Except.ok.inj h).symm (fun d hdd hn => ?_) (fun ds hdd => ?_)
    · subst hdd
      obtain ⟨p', e1, e2⟩ := bind_ok g1
      obtain ⟨v', e3, e4⟩ := bind_ok g2
      obtain rfl := Except.ok.inj e2
      obtain rfl := Except.ok.inj e4
      simp only [AcSpec, hc]
      refine ⟨[p'], [v'], by simp [e1], by simp [e3], fun i => ?_⟩
      rw [← gather_ok g3 i]
      exact (getAc_one hn _ _ _).1.symm
    · subst hdd
      obtain ⟨p', e1, e2⟩ := bind_ok g1
      obtain ⟨v', e3, e4⟩ := bind_ok g2
      obtain rfl := Except.ok.inj e2
      obtain rfl := Except.ok.inj e4
      simp only [AcSpec, hc]
      exact ⟨p', v', (collect_ok_iff _ _).mp e1, (collect_ok_iff _ _).mp e3, gather_ok g3⟩
  | adr =>
    rw [hc] at h
    cases dc with
    | tuple ds => simp at h
    | one d =>
      simp only at h
      unbind p g1
      unbind v g2
      unbind ac g3
      refine wrapUp ac (Except.ok.inj h).symm (fun d' hdd hn => ?_) (fun ds hdd => by cases hdd)
      injection hdd with hdd
      subst hdd
      simp only [AcSpec, hc]
      refine ⟨p, v, by simp [g1], by simp [g2], fun i => ?_⟩
      rw [← gather_ok g3 i]
      exact (getAc_one hn _ _ _).1.symm
  | pvwatts =>
    rw [hc] at h
    simp only at h
    unbind p g1
    unbind q g3
    refine wrapUp _ (Except.ok.inj h).symm (fun d hdd hn => ?_) (fun ds hdd => ?_)
    · subst hdd
      obtain ⟨p', e1, e2⟩ := bind_ok g1
      obtain rfl := Except.ok.inj e2
      simp only [AcSpec, hc]
      refine ⟨[p'], q, by simp [e1], fun i => ⟨?_, rfl⟩⟩
      rw [← gather_ok g3 i]
      exact (getAc_one hn _ _ 0).2.symm
    · subst hdd
      obtain ⟨p', e1, e2⟩ := bind_ok g1
      obtain rfl := Except.ok.inj e2
      simp only [AcSpec, hc]
      exact ⟨p', q, (collect_ok_iff _ _).mp e1, fun i => ⟨gather_ok g3 i, rfl⟩⟩

/-! ### The runs -/

/-- Everything from the effective irradiance on, for array `k`. -/
def Tail (c : Chain) (s : Site) (x : Input) (times : List ℝ) (r r' : Results) : Prop :=
  (∃ ac dcs, r'.ac = some ac ∧ dcs.length = c.system.arrays.length ∧
    (∀ k, k < c.system.arrays.length → part k r'.dc = dcs[k]?) ∧ AcSpec c dcs ac) ∧ Shape c.system x r'.cell_temperature ∧ Shape c.system x r'.dc ∧
  (∃ f, r'.losses = some f ∧ ∀ k a w ti e, c.system.arrays[k]? = some a → frameFor x k = some w →
    part k r.total_irrad = some ti → part k r.effective_irradiance = some e →
    ∃ t d d1 d2, part k r'.cell_temperature = some t ∧ part k r'.dc = some d2 ∧
      CellSpec c s times a w (if AllPoa r.total_irrad then colOr ti "poa_global" nan else e) e t ∧
      DcSpec c s a e t d ∧ OhmicSpec c a d d1 ∧ LossSpec c d1 d2 f) ∧
  r' = { r with cell_temperature := r'.cell_temperature, dc := r'.dc, diode_params := r'.diode_params,
                dc_ohmic_losses := r'.dc_ohmic_losses, losses := r'.losses, ac := r'.ac }

theorem tail_spec {c : Chain} {s : Site} {x : Input} {r r' : Results} {times : List ℝ}
    (h : runFromEff c s (toTuple x) r = .ok r') (hx : Bare x ∨ Matches c.system x)
    (ht : Shape c.system x r.total_irrad) (he : Shape c.system x r.effective_irradiance) (h3 : r.times = some times)
    (h5 : r.weather = some (wrapIf (single c.system x) (PerArray.map buildWeather (toTuple x))))
    (hsi : r.singleton = single c.system x) : Tail c s x times r r' := by
  unfold runFromEff at h
  unbind r1 g1
  unbind r2 g2
  unbind r3 g3
  unbind r4 g4
  obtain ⟨v1, rfl, s1, p1⟩ := temperature_spec g1 hx ht he h3 h5 hsi
  obtain ⟨v2, w2, rfl, s2, p2⟩ := dc_spec (x := x) g2 hsi
  obtain ⟨v3, w3, rfl, s3, p3⟩ := ohmic_spec (x := x) g3 hsi s2
  obtain ⟨v4, f, rfl, s4, p4⟩ := losses_spec (x := x) g4 hsi s3
  obtain ⟨v5, dcs, rfl, ld, hp, hac⟩ := ac_spec (x := x) h s4
  refine ⟨⟨v5, dcs, rfl, ld, hp, hac⟩, s1, s4, ⟨f, rfl, fun k a w ti e ha hw hti he => ?_⟩, rfl⟩
  obtain ⟨t, t1, t2⟩ := p1 k a w ti e ha hw hti he
  obtain ⟨d, d1, d2⟩ := p2 k a e t ha he t1
  obtain ⟨d', d3, d4⟩ := p3 k a d ha d1
  obtain ⟨d'', d5, d6⟩ := p4 k d' d3
  exact ⟨t, d, d', d'', t1, d5, t2, d2, d4, d6⟩

theorem optics_spec {c : Chain} {s : Site} {x : Input} {r r' : Results} {sp : SolPos} {am : AirMass}
    (h : runOptics c s r = .ok r') (hx : Bare x ∨ Matches c.system x) (hsi : r.singleton = single c.system x)
    (h2 : r.airmass = some am)
    (h5 : r.weather = some (wrapIf (single c.system x) (PerArray.map buildWeather (toTuple x))))
    (ht : Shape c.system x r.total_irrad) (ha : ∀ k a, c.system.arrays[k]? = some a →
        part k r.aoi = some fun i => a.getAoi (sp.apparent_zenith i) (sp.azimuth i)) :
    ∃ m1 m2 m3, r' = { r with aoi_modifier := m1, spectral_modifier := m2, effective_irradiance := m3 } ∧
      Shape c.system x m1 ∧ Shape c.system x m2 ∧ Shape c.system x m3 ∧
      ∀ k a w ti, c.system.arrays[k]? = some a → frameFor x k = some w → part k r.total_irrad = some ti →
        ∃ aoi iam sm e, part k r.aoi = some aoi ∧ part k m1 = some iam ∧ part k m2 = some sm ∧ part k m3 = some e ∧
          OpticsSpec c s sp am a w ti aoi iam sm e := by
  unfold runOptics at h
  unbind r1 g1
  unbind r2 g2
  obtain ⟨m1, rfl, s1, p1⟩ := aoi_spec (x := x) g1 hsi
  obtain ⟨m2, rfl, s2, p2⟩ := spectral_spec (x := x) g2 hx h2 h5 hsi
  obtain ⟨m3, rfl, s3, p3⟩ := eff_spec (x := x) h hsi ht s2 s1
  refine ⟨m1, m2, m3, rfl, s1, s2, s3, fun k a w ti hk hw hti => ?_⟩
  obtain ⟨iam, i1, i2⟩ := p1 k a _ hk (ha k a hk)
  obtain ⟨sm, j1, j2⟩ := p2 k a w hk hw
  obtain ⟨e, e1, e2⟩ := p3 k a ti sm iam hk hti j1 i1
  exact ⟨_, iam, sm, e, ha k a hk, i1, j1, e1, ⟨fun _ => rfl, i2, j2, e2⟩⟩

/-- What a run knows of the sky: the solar position at the common index of the frames, from the first frame's pressure and air
temperature, and the air mass. -/
structure SkySpec (c : Chain) (s : Site) (x : Input) (r : Results) (sp : SolPos) (am : AirMass) (times : List ℝ) : Prop where
  stored : r.solar_position = some sp ∧ r.airmass = some am ∧ r.times = some times
  index : ∀ d ∈ frames x, d.index = times
  position : ∃ d, frameFor x 0 = some d ∧
    s.solarPosition times c.solar_position_method (d.cols.get? "pressure") (d.cols.get? "temp_air") = .ok sp
  airmass : ∀ i, Location.getAirmass s.altitude (sp.zenith i) (sp.apparent_zenith i) c.airmass_model =
    .ok (am.relative i, am.absolute i)

/-- The results of array `k`. -/
structure ArrayResults (r : Results) (k : ℕ) (ti : DF) (aoi iam sm e t : Ser) (d : Dc) : Prop where
  total_irrad : part k r.total_irrad = some ti
  aoi : part k r.aoi = some aoi
  aoi_modifier : part k r.aoi_modifier = some iam
  spectral_modifier : part k r.spectral_modifier = some sm
  effective_irradiance : part k r.effective_irradiance = some e
  cell_temperature : part k r.cell_temperature = some t
  dc : part k r.dc = some d

/-- DC power of an array, with all its losses. -/
def PowerSpec (c : Chain) (s : Site) (a : PvArr) (e t : Ser) (factor : Fl) (d : Dc) : Prop :=
  ∃ d0 d1, DcSpec c s a e t d0 ∧ OhmicSpec c a d0 d1 ∧ LossSpec c d1 d factor

/-- The AC power of the run is that of its DC results. -/
def AcFrom (c : Chain) (r : Results) : Prop :=
  ∃ ac dcs, r.ac = some ac ∧ dcs.length = c.system.arrays.length ∧
    (∀ k, k < c.system.arrays.length → part k r.dc = dcs[k]?) ∧ AcSpec c dcs ac

/-- Every per-array result has the right shape. -/
structure AllShapes (c : Chain) (x : Input) (r : Results) : Prop where
  total_irrad : Shape c.system x r.total_irrad
  aoi : Shape c.system x r.aoi
  aoi_modifier : Shape c.system x r.aoi_modifier
  spectral_modifier : Shape c.system x r.spectral_modifier
  effective_irradiance : Shape c.system x r.effective_irradiance
  cell_temperature : Shape c.system x r.cell_temperature
  dc : Shape c.system x r.dc

theorem run_model_all {c : Chain} {s : Site} {x : Input} {r r' : Results} (h : runModel c s x r = .ok r') :
    AllShapes c x r' ∧ AcFrom c r' ∧ ∃ sp am times f, SkySpec c s x r' sp am times ∧ r'.losses = some f ∧
      ∀ k a, c.system.arrays[k]? = some a → ∃ w ti aoi iam sm e t d, frameFor x k = some w ∧
        ArrayResults r' k ti aoi iam sm e t d ∧ PoaSpec c s sp am times (AllAlbedo x) a w ti ∧
        OpticsSpec c s sp am a w ti aoi iam sm e ∧ CellSpec c s times a w (colOr ti "poa_global" nan) e t ∧
        PowerSpec c s a e t f d := by
  have hx := (run_model_accepts c s x r r' h).1
  unfold runModel at h
  unbind r1 g1
  unbind r2 g2
  unfold prepareInputs at g1
  obtain ⟨_, _, g1⟩ := bind_ok g1
  obtain ⟨_, _, g1⟩ := bind_ok g1
  obtain ⟨a1, w1, g1⟩ := bind_ok g1
  obtain ⟨a2, w2, g1⟩ := bind_ok g1
  obtain ⟨a3, w3, g1⟩ := bind_ok g1
  obtain ⟨a4, w4, g1⟩ := bind_ok g1
  obtain ⟨times, v, rfl, rfl, hidx⟩ := assignWeather_spec w1 hx
  obtain ⟨sp, times', d0, rfl, ht', hd0, hsp⟩ := solarPos_spec w2
  obtain rfl := Option.some.inj ht'
  obtain ⟨am, rfl, ham⟩ := airmass_spec w3 rfl
  generalize hb : prepAlbedo c (toTuple x) _ = b at w4
  obtain ⟨al, hal, hal2⟩ := albedo_spec' hb rfl
  subst hal
  clear hb
  obtain ⟨va, rfl, sa, pa⟩ := fixed_spec (x := x) w4 rfl rfl
  obtain ⟨vt, rfl, st, pt⟩ := irradiance_spec g1 hx rfl rfl rfl rfl rfl hal2 rfl
  obtain ⟨m1, m2, m3, rfl, s1, s2, s3, po⟩ := optics_spec (sp := sp) (am := am) g2 hx rfl rfl rfl st pa
  obtain ⟨hac, sc, sd, ⟨f, hf, pf⟩, hr⟩ := tail_spec h hx st s3 rfl rfl rfl
  have hall : AllPoa vt := by
    intro k ti hti
    have sub : ∀ k, k < c.system.arrays.length → ∀ ti, part k vt = some ti → ti.cols.get? "poa_global" ≠ none := by
      intro k hk ti hti
      obtain ⟨a, ha⟩ := get_lt hk
      obtain ⟨w, ti', _, e2, ⟨_, _, _, _, _, _, p, e3, _⟩⟩ := pt k a ha
      rw [e2] at hti
      obtain rfl := Option.some.inj hti
      rw [e3]; simp [poaFrame, PyDict.get?]
    cases vt with
    | none => simp [part] at hti
    | some v => cases v with
      | one y =>
        have hn := (shape_one st).2
        exact sub 0 (by omega) ti hti
      | tuple ys =>
        exact sub k (by rw [← (shape_tuple st).1]; exact lt_of_get hti) ti hti
  refine ⟨⟨by rw [hr]; exact st, by rw [hr]; exact sa, by rw [hr]; exact s1, by rw [hr]; exact s2, by rw [hr]; exact s3, sc, sd⟩, hac,
    sp, am, times, f, ⟨⟨by rw [hr], by rw [hr], by rw [hr]⟩, hidx, ⟨d0, hd0, hsp⟩, ham⟩, hf, fun k a ha => ?_⟩
  obtain ⟨w, ti, hw, hti, hpoa⟩ := pt k a ha
  obtain ⟨aoi, iam, sm, e, q1, q2, q3, q4, q5⟩ := po k a w ti ha hw hti
  obtain ⟨t, d, d1, d2, u1, u2, u3, u4, u5, u6⟩ := pf k a w ti e ha hw hti q4
  dsimp only at u3
  rw [if_pos hall] at u3
  refine ⟨w, ti, aoi, iam, sm, e, t, d2, hw, ⟨?_, ?_, ?_, ?_, ?_, u1, u2⟩, hpoa, q5, u3, ⟨d, d1, u4, u5, u6⟩⟩
  all_goals rw [hr]; assumption

/-- **C95**: after `run_model`, the results of each array follow from that array, its own frame and the sky alone (and from
whether every frame has an albedo column). -/
theorem run_model_array {c : Chain} {s : Site} {x : Input} {r r' : Results} (h : runModel c s x r = .ok r') :
    ∃ sp am times f, SkySpec c s x r' sp am times ∧ r'.losses = some f ∧
      ∀ k a, c.system.arrays[k]? = some a → ∃ w ti aoi iam sm e t d, frameFor x k = some w ∧
        ArrayResults r' k ti aoi iam sm e t d ∧ PoaSpec c s sp am times (AllAlbedo x) a w ti ∧
        OpticsSpec c s sp am a w ti aoi iam sm e ∧ CellSpec c s times a w (colOr ti "poa_global" nan) e t ∧
        PowerSpec c s a e t f d := (run_model_all h).2.2

theorem input_shape {α : Type} {sys : System} {x : Input} (f : DF → α) (h : Strict sys x) :
    Shape sys x (some (wrapIf (single sys x) (PerArray.map f (toTuple x)))) := by
  cases x with
  | frame d =>
    have hn : sys.arrays.length = 1 := by simpa [Strict, Bare] using h
    rw [Shape, if_pos ⟨by simp [Bare], hn⟩]
    exact ⟨f d, by simp [single, isTuple, wrapIf, PerArray.map, toTuple]⟩
  | tuple ds =>
    have hm : Matches sys (.tuple ds) := by simpa [Strict, Bare] using h
    exact tuple_shape (by simpa [Matches, frames] using hm.1) (by simp [Bare])
  | list ds =>
    have hm : Matches sys (.list ds) := by simpa [Strict, Bare] using h
    exact tuple_shape (by simpa [Matches, frames] using hm.1) (by simp [Bare])

theorem strict_weak {sys : System} {x : Input} (h : Strict sys x) : Bare x ∨ Matches sys x := by
  unfold Strict at h
  split_ifs at h with hb
  · exact .inl hb
  · exact .inr h

theorem poa_get (d : DF) (k : String) (hk : k ∈ ["poa_global", "poa_direct", "poa_diffuse"]) :
    (d.select poaKeys).cols.get? k = d.cols.get? k := by
  rw [select_get, if_pos (by simpa [poaKeys] using hk)]

theorem allPoa_iff {sys : System} {x : Input} (hs : Strict sys x) :
    AllPoa (some (wrapIf (single sys x) (PerArray.map (fun d => d.select poaKeys) (toTuple x)))) ↔ HasCols x ["poa_global"] := by
  constructor
  · intro h d hd n hn
    simp only [List.mem_singleton] at hn
    subst hn
    have : ∃ k, frameFor x k = some d := by
      cases x with
      | frame d' => exact ⟨0, by simp [frames] at hd; simp [frameFor, hd]⟩
      | tuple ds => exact List.getElem?_of_mem hd
      | list ds => exact List.getElem?_of_mem hd
    obtain ⟨k, hk⟩ := this
    have := h k (d.select poaKeys) (by rw [part_input, hk]; rfl)
    rwa [poa_get _ _ (by simp)] at this
  · intro h k ti hti
    rw [part_input] at hti
    obtain ⟨w, hw, rfl⟩ := Option.map_eq_some_iff.mp hti
    rw [poa_get _ _ (by simp)]
    exact h w (frame_mem hw) _ (by simp)

/-- The plane-of-array columns of the user's frame. -/
def PoaGiven (w ti : DF) : Prop := ∀ name ∈ ["poa_global", "poa_direct", "poa_diffuse"], ti.cols.get? name = w.cols.get? name

theorem run_poa_all {c : Chain} {s : Site} {x : Input} {r r' : Results} (h : runModelFromPoa c s x r = .ok r') :
    AllShapes c x r' ∧ AcFrom c r' ∧ ∃ sp am times f, SkySpec c s x r' sp am times ∧ r'.losses = some f ∧
      ∀ k a, c.system.arrays[k]? = some a → ∃ w ti aoi iam sm e t d, frameFor x k = some w ∧
        ArrayResults r' k ti aoi iam sm e t d ∧ PoaGiven w ti ∧
        OpticsSpec c s sp am a w ti aoi iam sm e ∧ CellSpec c s times a w (colOr w "poa_global" nan) e t ∧
        PowerSpec c s a e t f d := by
  obtain ⟨hs, hcols⟩ := run_poa_accepts c s x r r' h
  have hx := strict_weak hs
  unfold runModelFromPoa at h
  unbind r1 g1
  unbind r2 g2
  unfold prepareInputsFromPoa at g1
  obtain ⟨_, _, g1⟩ := bind_ok g1
  obtain ⟨a1, w1, g1⟩ := bind_ok g1
  obtain ⟨_, _, g1⟩ := bind_ok g1
  obtain ⟨a2, w2, g1⟩ := bind_ok g1
  obtain ⟨a3, w3, g1⟩ := bind_ok g1
  obtain ⟨times, v, rfl, rfl, hidx⟩ := assignWeather_spec w1 hx
  obtain ⟨sp, times', d0, rfl, ht', hd0, hsp⟩ := solarPos_spec w2
  obtain rfl := Option.some.inj ht'
  obtain ⟨am, rfl, ham⟩ := airmass_spec w3 rfl
  obtain ⟨va, rfl, sa, pa⟩ := fixed_spec (x := x) g1 rfl rfl
  have st := input_shape (fun d => d.select poaKeys) hs
  obtain ⟨m1, m2, m3, rfl, s1, s2, s3, po⟩ := optics_spec (sp := sp) (am := am) g2 hx rfl rfl rfl st pa
  obtain ⟨hac, sc, sd, ⟨f, hf, pf⟩, hr⟩ := tail_spec h hx st s3 rfl rfl rfl
  have hall := (allPoa_iff hs).mpr fun d hd n hn => hcols d hd n (by simp only [List.mem_singleton] at hn; simp [hn])
  refine ⟨⟨by rw [hr]; exact st, by rw [hr]; exact sa, by rw [hr]; exact s1, by rw [hr]; exact s2, by rw [hr]; exact s3, sc, sd⟩, hac,
    sp, am, times, f, ⟨⟨by rw [hr], by rw [hr], by rw [hr]; rfl⟩, hidx, ⟨d0, hd0, hsp⟩, ham⟩, hf, fun k a ha => ?_⟩
  obtain ⟨w, hw⟩ := frame_exists hx (lt_of_get ha)
  have hti : part k (some (wrapIf (single c.system x) (PerArray.map (fun d => d.select poaKeys) (toTuple x)))) =
      some (w.select poaKeys) := by rw [part_input, hw]; rfl
  obtain ⟨aoi, iam, sm, e, q1, q2, q3, q4, q5⟩ := po k a w _ ha hw hti
  obtain ⟨t, d, d1, d2, u1, u2, u3, u4, u5, u6⟩ := pf k a w _ e ha hw hti q4
  have u3 : CellSpec c s times a w (colOr w "poa_global" nan) e t := by
    have e1 : colOr (w.select poaKeys) "poa_global" nan = colOr w "poa_global" nan := by
      unfold colOr; rw [poa_get _ _ (by simp)]
    rw [← e1]
    refine cast ?_ u3
    congr 1
    exact if_pos hall
  refine ⟨w, _, aoi, iam, sm, e, t, d2, hw, ⟨by rw [hr]; exact hti, ?_, ?_, ?_, ?_, u1, u2⟩, fun name hn => poa_get _ _ hn, q5, u3,
    ⟨d, d1, u4, u5, u6⟩⟩
  all_goals rw [hr]; assumption

/-- **C95**: `run_model_from_poa` is the same with the plane-of-array irradiance of the frames. -/
theorem run_poa_array {c : Chain} {s : Site} {x : Input} {r r' : Results} (h : runModelFromPoa c s x r = .ok r') :
    ∃ sp am times f, SkySpec c s x r' sp am times ∧ r'.losses = some f ∧
      ∀ k a, c.system.arrays[k]? = some a → ∃ w ti aoi iam sm e t d, frameFor x k = some w ∧
        ArrayResults r' k ti aoi iam sm e t d ∧ PoaGiven w ti ∧
        OpticsSpec c s sp am a w ti aoi iam sm e ∧ CellSpec c s times a w (colOr w "poa_global" nan) e t ∧
        PowerSpec c s a e t f d := (run_poa_all h).2.2

theorem run_eff_all {c : Chain} {s : Site} {x : Input} {r r' : Results} (h : runModelFromEff c s x r = .ok r') :
    (Shape c.system x r'.effective_irradiance ∧ Shape c.system x r'.cell_temperature ∧ Shape c.system x r'.dc) ∧ AcFrom c r' ∧
    ∃ times f, (∀ d ∈ frames x, d.index = times) ∧ r'.losses = some f ∧
      ∀ k a, c.system.arrays[k]? = some a → ∃ w e t d, frameFor x k = some w ∧ w.cols.get? "effective_irradiance" = some e ∧
        part k r'.effective_irradiance = some e ∧ part k r'.cell_temperature = some t ∧ part k r'.dc = some d ∧
        CellSpec c s times a w (if HasCols x ["poa_global"] then colOr w "poa_global" nan else e) e t ∧
        PowerSpec c s a e t f d := by
  obtain ⟨hs, hcols⟩ := run_eff_accepts c s x r r' h
  have hx := strict_weak hs
  unfold runModelFromEff at h
  obtain ⟨_, _, h⟩ := bind_ok h
  obtain ⟨_, _, h⟩ := bind_ok h
  obtain ⟨a1, w1, h⟩ := bind_ok h
  obtain ⟨ev, we, h⟩ := bind_ok h
  obtain ⟨times, v, rfl, rfl, hidx⟩ := assignWeather_spec w1 hx
  have st := input_shape (fun d => d.select poaKeys) hs
  have hev : ev = PerArray.map (fun d => colOr d "effective_irradiance" nan) (toTuple x) := by
    cases x with
    | frame d =>
      obtain ⟨z, z1, z2⟩ := bind_ok we
      obtain rfl := Except.ok.inj z2
      simp [toTuple, PerArray.map, colOr, argOf_ok z1]
    | tuple ds =>
      obtain ⟨zs, z1, z2⟩ := bind_ok we
      obtain rfl := Except.ok.inj z2
      rw [collect_ok_iff, map_iff] at z1
      simp only [toTuple, PerArray.map, PerArray.tuple.injEq]
      apply List.ext_getElem?
      intro i
      by_cases hi : i < ds.length
      · obtain ⟨d, hd⟩ := get_lt hi
        obtain ⟨z, hz⟩ := get_lt (as := zs) (k := i) (by omega)
        rw [hz, List.getElem?_map, hd, Option.map_some, colOr, argOf_ok (z1.2 i d z hd hz)]; rfl
      · rw [List.getElem?_eq_none (by omega), List.getElem?_eq_none (by simp; omega)]
    | list ds =>
      obtain ⟨zs, z1, z2⟩ := bind_ok we
      obtain rfl := Except.ok.inj z2
      rw [collect_ok_iff, map_iff] at z1
      simp only [toTuple, PerArray.map, PerArray.tuple.injEq]
      apply List.ext_getElem?
      intro i
      by_cases hi : i < ds.length
      · obtain ⟨d, hd⟩ := get_lt hi
        obtain ⟨z, hz⟩ := get_lt (as := zs) (k := i) (by omega)
        rw [hz, List.getElem?_map, hd, Option.map_some, colOr, argOf_ok (z1.2 i d z hd hz)]; rfl
      · rw [List.getElem?_eq_none (by omega), List.getElem?_eq_none (by simp; omega)]
  subst hev
  have se := input_shape (fun d => colOr d "effective_irradiance" nan) hs
  obtain ⟨hac, sc, sd, ⟨f, hf, pf⟩, hr⟩ := tail_spec h hx st se rfl rfl rfl
  refine ⟨⟨by rw [hr]; exact se, sc, sd⟩, hac, times, f, hidx, hf, fun k a ha => ?_⟩
  obtain ⟨w, hw⟩ := frame_exists hx (lt_of_get ha)
  have hti : part k (some (wrapIf (single c.system x) (PerArray.map (fun d => d.select poaKeys) (toTuple x)))) =
      some (w.select poaKeys) := by rw [part_input, hw]; rfl
  have hee : part k (some (wrapIf (single c.system x) (PerArray.map (fun d => colOr d "effective_irradiance" nan) (toTuple x)))) =
      some (colOr w "effective_irradiance" nan) := by rw [part_input, hw]; rfl
  obtain ⟨t, d, d1, d2, u1, u2, u3, u4, u5, u6⟩ := pf k a w _ _ ha hw hti hee
  obtain ⟨e, he⟩ := Option.ne_none_iff_exists'.mp (hcols w (frame_mem hw) "effective_irradiance" (by simp))
  have hc : colOr w "effective_irradiance" nan = e := by rw [colOr, he]; rfl
  rw [hc] at u3 u4 hee
  refine ⟨w, e, t, d2, hw, he, by rw [hr]; exact hee, u1, u2, ?_, ⟨d, d1, u4, u5, u6⟩⟩
  have e1 : colOr (w.select poaKeys) "poa_global" nan = colOr w "poa_global" nan := by
    unfold colOr; rw [poa_get _ _ (by simp)]
  rw [← e1]
  refine cast ?_ u3
  congr 1
  have := allPoa_iff hs
  by_cases hg : HasCols x ["poa_global"]
  · rw [if_pos hg]; exact if_pos (this.mpr hg)
  · rw [if_neg hg]; exact if_neg fun hh => hg (this.mp hh)

/-- **C95**: `run_model_from_effective_irradiance`: the cell temperature is computed from the plane-of-array irradiance only if
every frame has it, otherwise from the effective irradiance. -/
theorem run_eff_array {c : Chain} {s : Site} {x : Input} {r r' : Results} (h : runModelFromEff c s x r = .ok r') :
    ∃ times f, (∀ d ∈ frames x, d.index = times) ∧ r'.losses = some f ∧
      ∀ k a, c.system.arrays[k]? = some a → ∃ w e t d, frameFor x k = some w ∧ w.cols.get? "effective_irradiance" = some e ∧
        part k r'.effective_irradiance = some e ∧ part k r'.cell_temperature = some t ∧ part k r'.dc = some d ∧
        CellSpec c s times a w (if HasCols x ["poa_global"] then colOr w "poa_global" nan else e) e t ∧
        PowerSpec c s a e t f d := (run_eff_all h).2.2

/-- **C96**: the per-array results are tuples with one entry per array, in order, except for one array and a bare frame: then
they are bare. -/
theorem run_shapes {c : Chain} {s : Site} {x : Input} {r r' : Results} :
    (runModel c s x r = .ok r' → AllShapes c x r') ∧ (runModelFromPoa c s x r = .ok r' → AllShapes c x r') ∧
    (runModelFromEff c s x r = .ok r' →
      Shape c.system x r'.effective_irradiance ∧ Shape c.system x r'.cell_temperature ∧ Shape c.system x r'.dc) :=
  ⟨fun h => (run_model_all h).1, fun h => (run_poa_all h).1, fun h => (run_eff_all h).1⟩

/-- **C95**: the AC power is one series for the system, computed from the DC results of all arrays in order. -/
theorem run_ac {c : Chain} {s : Site} {x : Input} {r r' : Results}
    (h : runModel c s x r = .ok r' ∨ runModelFromPoa c s x r = .ok r' ∨ runModelFromEff c s x r = .ok r') : AcFrom c r' := by
  rcases h with h | h | h
  · exact (run_model_all h).2.1
  · exact (run_poa_all h).2.1
  · exact (run_eff_all h).2.1

end Pvlib.Props.ChainArrays
end
