import Verif.Props.ChainConfig
import Verif.Props.Spec

/-! # Properties C93 (what a run accepts) and C94 (a run does not depend on earlier runs) -/

noncomputable section
open scoped Classical
namespace Pvlib.Props.ChainRun
open Fl Pvlib.Tools Pvlib.PvFunctions Pvlib.PvSystem Pvlib.ModelChain Pvlib.Props.PvSystem

/-! ### C93: inputs -/

/-- The frames of an input. -/
def frames : Input → List DF
  | .frame d => [d]
  | .tuple ds => ds
  | .list ds => ds

/-- The input is a bare DataFrame. -/
def Bare : Input → Prop
  | .frame _ => True
  | _ => False

/-- One frame per array, all with the same index. -/
def Matches (sys : System) (x : Input) : Prop :=
  (frames x).length = sys.arrays.length ∧ ∀ d ∈ frames x, ∀ e ∈ frames x, d.index = e.index

/-- Every frame has the columns. -/
def HasCols (x : Input) (names : List String) : Prop := ∀ d ∈ frames x, ∀ k ∈ names, d.cols.get? k ≠ none

private theorem bind_ok {ε α β : Type} {x : Except ε α} {f : α → Except ε β} {b : β} (h : x.bind f = .ok b) :
    ∃ a, x = .ok a ∧ f a = .ok b := by
  cases x with
  | error e => simp [Except.bind] at h
  | ok a => exact ⟨a, rfl, h⟩

private theorem sameIndex_iff (ds : List DF) : allSameIndex ds = true ↔ ∀ d ∈ ds, ∀ e ∈ ds, d.index = e.index := by
  cases ds with
  | nil => simp [allSameIndex]
  | cons d ds =>
    simp only [allSameIndex, List.all_eq_true, decide_eq_true_eq, List.mem_cons]
    constructor
    · intro h x hx y hy
      have e : ∀ z, z = d ∨ z ∈ ds → z.index = d.index := by
        rintro z (rfl | hz)
        · rfl
        · exact h z hz
      rw [e x hx, e y hy]
    · intro h x hx; exact h x (.inr hx) d (.inl rfl)

private theorem check_iff (sys : System) (x : Input) (strict : Bool) :
    checkMultipleInput sys (toTuple x) strict = .ok () ↔
      (if Bare x then strict = false ∨ sys.arrays.length = 1 else Matches sys x) := by
  cases x with
  | frame d => cases strict <;> by_cases h : sys.arrays.length = 1 <;> simp [checkMultipleInput, toTuple, Bare, h]
  | tuple ds =>
    by_cases h : ds.length = sys.arrays.length <;> by_cases h2 : allSameIndex ds = true <;>
      simp [checkMultipleInput, toTuple, Bare, Matches, frames, h, h2, ← sameIndex_iff]
  | list ds =>
    by_cases h : ds.length = sys.arrays.length <;> by_cases h2 : allSameIndex ds = true <;>
      simp [checkMultipleInput, toTuple, Bare, Matches, frames, h, h2, ← sameIndex_iff]

private theorem check_error (sys : System) (x : Input) (strict : Bool)
    (h : ¬ (if Bare x then strict = false ∨ sys.arrays.length = 1 else Matches sys x)) :
    checkMultipleInput sys (toTuple x) strict = .error (if Bare x then .typeError else .valueError) := by
  cases x with
  | frame d =>
    cases strict <;> by_cases h1 : sys.arrays.length = 1 <;> simp [checkMultipleInput, toTuple, Bare, h1] at h ⊢
  | tuple ds =>
    by_cases h1 : ds.length = sys.arrays.length <;> by_cases h2 : allSameIndex ds = true <;>
      simp [checkMultipleInput, toTuple, Bare, Matches, frames, h1, h2, ← sameIndex_iff] at h ⊢
  | list ds =>
    by_cases h1 : ds.length = sys.arrays.length <;> by_cases h2 : allSameIndex ds = true <;>
      simp [checkMultipleInput, toTuple, Bare, Matches, frames, h1, h2, ← sameIndex_iff] at h ⊢

private theorem all_has (d : DF) (names : List String) : names.all d.has = true ↔ ∀ k ∈ names, d.cols.get? k ≠ none := by
  simp [DF.has, List.all_eq_true, Option.isSome_iff_ne_none]

private theorem verify_iff (x : Input) (names : List String) : verifyDf (toTuple x) names = .ok () ↔ HasCols x names := by
  cases x with
  | frame d =>
    by_cases h : names.all d.has = true
    · simp only [verifyDf, toTuple, h, if_true, true_iff]
      simpa [HasCols, frames] using (all_has d names).mp h
    · simp only [verifyDf, toTuple, h]
      constructor
      · intro h'; simp at h'
      · intro h'; exact absurd ((all_has d names).mpr (h' d (by simp [frames]))) h
  | tuple ds =>
    by_cases h : (ds.all fun d => names.all d.has) = true
    · simp only [verifyDf, toTuple, h, if_true, true_iff]
      rw [List.all_eq_true] at h
      exact fun d hd => (all_has d names).mp (h d hd)
    · simp only [verifyDf, toTuple, h]
      constructor
      · intro h'; simp at h'
      · intro h'; exact absurd (List.all_eq_true.mpr fun d hd => (all_has d names).mpr (h' d hd)) h
  | list ds =>
    by_cases h : (ds.all fun d => names.all d.has) = true
    · simp only [verifyDf, toTuple, h, if_true, true_iff]
      rw [List.all_eq_true] at h
      exact fun d hd => (all_has d names).mp (h d hd)
    · simp only [verifyDf, toTuple, h]
      constructor
      · intro h'; simp at h'
      · intro h'; exact absurd (List.all_eq_true.mpr fun d hd => (all_has d names).mpr (h' d hd)) h

private theorem verify_error (x : Input) (names : List String) (h : ¬ HasCols x names) :
    verifyDf (toTuple x) names = .error .valueError := by
  rw [← verify_iff] at h
  cases hv : verifyDf (toTuple x) names with
  | ok u => exact absurd hv h
  | error e =>
    cases x <;> simp only [verifyDf, toTuple] at hv <;> split_ifs at hv <;> simpa using hv.symm

/-- **C93**: a list of frames is treated as the tuple of the same frames. -/
theorem list_as_tuple (c : Chain) (s : Site) (ds : List DF) (r : Results) :
    runModel c s (.list ds) r = runModel c s (.tuple ds) r ∧ runModelFromPoa c s (.list ds) r = runModelFromPoa c s (.tuple ds) r ∧
    runModelFromEff c s (.list ds) r = runModelFromEff c s (.tuple ds) r ∧
    completeIrradiance c s (.list ds) r = completeIrradiance c s (.tuple ds) r := ⟨rfl, rfl, rfl, rfl⟩

/-- **C93**: `run_model` takes a bare frame for any number of arrays, or one frame per array with equal indexes; each with the
three irradiance columns. -/
theorem run_model_accepts (c : Chain) (s : Site) (x : Input) (r r' : Results) (h : runModel c s x r = .ok r') :
    (Bare x ∨ Matches c.system x) ∧ HasCols x ["ghi", "dni", "dhi"] := by
  obtain ⟨r1, h, _⟩ := bind_ok h
  obtain ⟨_, h1, h⟩ := bind_ok h
  obtain ⟨_, h2, _⟩ := bind_ok h
  have := (check_iff c.system x false).mp h1
  refine ⟨?_, (verify_iff x _).mp h2⟩
  by_cases hb : Bare x
  · exact .inl hb
  · simp only [hb, if_false] at this; exact .inr this

/-- Otherwise it raises ValueError before anything is computed. -/
theorem run_model_refuses (c : Chain) (s : Site) (x : Input) (r : Results)
    (h : ¬ ((Bare x ∨ Matches c.system x) ∧ HasCols x ["ghi", "dni", "dhi"])) : runModel c s x r = .error .valueError := by
  by_cases h1 : Bare x ∨ Matches c.system x
  · have h2 : ¬ HasCols x ["ghi", "dni", "dhi"] := fun h2 => h ⟨h1, h2⟩
    have e1 : checkMultipleInput c.system (toTuple x) false = .ok () := by
      rw [check_iff]; by_cases hb : Bare x <;> simp_all
    simp [runModel, prepareInputs, e1, verify_error x _ h2, Except.bind]
  · simp only [not_or] at h1
    have e1 := check_error c.system x false (by simp [h1.1, h1.2])
    simp [runModel, prepareInputs, e1, h1.1, Except.bind]

/-- The stricter rule of the other two entry points: a bare frame only for one array. -/
def Strict (sys : System) (x : Input) : Prop := if Bare x then sys.arrays.length = 1 else Matches sys x

private theorem strict_check (sys : System) (x : Input) : checkMultipleInput sys (toTuple x) = .ok () ↔ Strict sys x := by
  rw [check_iff]; simp [Strict]

/-- **C93**: `run_model_from_poa` and `run_model_from_effective_irradiance`. -/
theorem run_poa_accepts (c : Chain) (s : Site) (x : Input) (r r' : Results) (h : runModelFromPoa c s x r = .ok r') :
    Strict c.system x ∧ HasCols x ["poa_global", "poa_direct", "poa_diffuse"] := by
  obtain ⟨r1, h, _⟩ := bind_ok h
  obtain ⟨_, h1, h⟩ := bind_ok h
  obtain ⟨_, _, h⟩ := bind_ok h
  obtain ⟨_, h2, _⟩ := bind_ok h
  exact ⟨(strict_check _ x).mp h1, (verify_iff x _).mp h2⟩

theorem run_eff_accepts (c : Chain) (s : Site) (x : Input) (r r' : Results) (h : runModelFromEff c s x r = .ok r') :
    Strict c.system x ∧ HasCols x ["effective_irradiance"] := by
  obtain ⟨_, h1, h⟩ := bind_ok h
  obtain ⟨_, h2, _⟩ := bind_ok h
  exact ⟨(strict_check _ x).mp h1, (verify_iff x _).mp h2⟩

/-- What they raise: TypeError for a bare frame and several arrays, ValueError for frames that do not match the arrays. -/
theorem run_strict_refuses (c : Chain) (s : Site) (x : Input) (r : Results) (h : ¬ Strict c.system x) :
    let e : PyErr := if Bare x then .typeError else .valueError
    runModelFromPoa c s x r = .error e ∧ runModelFromEff c s x r = .error e ∧ completeIrradiance c s x r = .error e := by
  have e1 := check_error c.system x true (by simpa [Strict] using h)
  simp [runModelFromPoa, runModelFromEff, completeIrradiance, prepareInputsFromPoa, e1, Except.bind]

private theorem assignWeather_ok (sys : System) (x : Input) (r : Results) (hne : frames x ≠ []) :
    ∃ r', assignWeather sys (toTuple x) r = .ok r' := by
  cases x with
  | frame d =>
    by_cases h1 : sys.arrays.length = 1 <;> simp [assignWeather, toTuple, PerArray.map, wrapIf, assignTimes, PerArray.isTuple, h1]
  | tuple ds => cases ds with
    | nil => exact absurd rfl hne
    | cons d ds => exact ⟨_, rfl⟩
  | list ds => cases ds with
    | nil => exact absurd rfl hne
    | cons d ds => exact ⟨_, rfl⟩

/-- Missing columns: ValueError. -/
theorem run_missing_columns (c : Chain) (s : Site) (x : Input) (r : Results) (hs : Strict c.system x) (hn : c.system.arrays ≠ []) :
    (¬ HasCols x ["poa_global", "poa_direct", "poa_diffuse"] → runModelFromPoa c s x r = .error .valueError) ∧
    (¬ HasCols x ["effective_irradiance"] → runModelFromEff c s x r = .error .valueError) := by
  have e1 := (strict_check _ x).mpr hs
  have hne : frames x ≠ [] := by
    intro h0
    cases x with
    | frame d => simp [frames] at h0
    | tuple ds => simp [Strict, Bare, Matches, h0] at hs; exact hn (List.length_eq_zero_iff.mp hs.symm)
    | list ds => simp [Strict, Bare, Matches, h0] at hs; exact hn (List.length_eq_zero_iff.mp hs.symm)
  constructor
  · intro h
    obtain ⟨r', h2⟩ := assignWeather_ok c.system x r hne
    simp [runModelFromPoa, prepareInputsFromPoa, e1, h2, verify_error x _ h, Except.bind]
  · intro h
    simp [runModelFromEff, e1, verify_error x _ h, Except.bind]

/-! ### C94: earlier runs -/

/-- The fields of `results`. -/
inductive Fld
  | singleton | solar_position | airmass | ac | losses | total_irrad | aoi | aoi_modifier | spectral_modifier
  | cell_temperature | effective_irradiance | dc | diode_params | dc_ohmic_losses | weather | times | albedo

/-- Two results have the same value in a field. -/
def EqOn (a b : Results) : Fld → Prop
  | .singleton => a.singleton = b.singleton
  | .solar_position => a.solar_position = b.solar_position
  | .airmass => a.airmass = b.airmass
  | .ac => a.ac = b.ac
  | .losses => a.losses = b.losses
  | .total_irrad => a.total_irrad = b.total_irrad
  | .aoi => a.aoi = b.aoi
  | .aoi_modifier => a.aoi_modifier = b.aoi_modifier
  | .spectral_modifier => a.spectral_modifier = b.spectral_modifier
  | .cell_temperature => a.cell_temperature = b.cell_temperature
  | .effective_irradiance => a.effective_irradiance = b.effective_irradiance
  | .dc => a.dc = b.dc
  | .diode_params => a.diode_params = b.diode_params
  | .dc_ohmic_losses => a.dc_ohmic_losses = b.dc_ohmic_losses
  | .weather => a.weather = b.weather
  | .times => a.times = b.times
  | .albedo => a.albedo = b.albedo

/-- Two outcomes of a run agree: the same exception, or results that agree on the fields. -/
def Same (F : List Fld) (x y : Except PyErr Results) : Prop :=
  match x, y with
  | .ok a, .ok b => ∀ f ∈ F, EqOn a b f
  | .error e, .error e' => e = e'
  | _, _ => False

private def Agree (F : List Fld) (a b : Results) : Prop := ∀ f ∈ F, EqOn a b f

private theorem same_bind {F G : List Fld} {x y : Except PyErr Results} {f g : Results → Except PyErr Results}
    (h : Same F x y) (hf : ∀ a b, Agree F a b → Same G (f a) (g b)) : Same G (x.bind f) (y.bind g) := by
  cases x <;> cases y <;> simp only [Same] at h
  · simp [Except.bind, Same, h]
  · exact hf _ _ h

private theorem bind_same {α : Type} {F : List Fld} {x : Except PyErr α} {f g : α → Except PyErr Results}
    (h : ∀ a, Same F (f a) (g a)) : Same F (x.bind f) (x.bind g) := by
  cases x with
  | error e => simp [Except.bind, Same]
  | ok a => exact h a

private theorem same_mono {F G : List Fld} {x y : Except PyErr Results} (h : Same F x y) (hs : ∀ f ∈ G, f ∈ F) : Same G x y := by
  cases x <;> cases y <;> simp only [Same] at h ⊢
  · exact h
  · exact fun f hf => h f (hs f hf)

-- Writing the same value into a field of both.
set_option hygiene false in
local macro "write" h:term : tactic =>
  `(tactic| (intro g hg; rcases List.mem_cons.mp hg with rfl | hg
             · rfl
             · have := $h g hg; cases g <;> first | rfl | exact this))

private theorem prepSolarPos_same (c : Chain) (s : Site) (d : PerArray DF) {F : List Fld} {a b : Results} (h : Agree F a b)
    (h1 : .times ∈ F) : Same (.solar_position :: F) (prepSolarPos c s d a) (prepSolarPos c s d b) := by
  have e1 : a.times = b.times := h _ h1
  unfold prepSolarPos
  rw [e1]
  refine bind_same fun _ => bind_same fun _ => bind_same fun _ => ?_
  write h

private theorem prepAirmass_same (c : Chain) (s : Site) {F : List Fld} {a b : Results} (h : Agree F a b)
    (h1 : .solar_position ∈ F) : Same (.airmass :: F) (prepAirmass c s a) (prepAirmass c s b) := by
  have e1 : a.solar_position = b.solar_position := h _ h1
  unfold prepAirmass
  rw [e1]
  refine bind_same fun _ => bind_same fun _ => ?_
  write h

private theorem prepAlbedo_same (c : Chain) (d : PerArray DF) {F : List Fld} {a b : Results} (h : Agree F a b)
    (h1 : .singleton ∈ F) : Agree (.albedo :: F) (prepAlbedo c d a) (prepAlbedo c d b) := by
  have e1 : a.singleton = b.singleton := h _ h1
  unfold prepAlbedo
  rw [e1]
  write h

private theorem prepFixed_same (c : Chain) {F : List Fld} {a b : Results} (h : Agree F a b)
    (h1 : .singleton ∈ F) (h2 : .solar_position ∈ F) : Same (.aoi :: F) (prepFixed c a) (prepFixed c b) := by
  have e1 : a.singleton = b.singleton := h _ h1
  have e2 : a.solar_position = b.solar_position := h _ h2
  unfold prepFixed
  rw [e1, e2]
  refine bind_same fun _ => bind_same fun _ => ?_
  write h

private theorem systemIrradiance_same (c : Chain) (s : Site) {F : List Fld} {a b : Results} (h : Agree F a b)
    (h1 : .singleton ∈ F) (h2 : .solar_position ∈ F) (h3 : .weather ∈ F) (h4 : .times ∈ F) (h5 : .albedo ∈ F) (h6 : .airmass ∈ F) :
    Same (.total_irrad :: F) (systemIrradiance c s a) (systemIrradiance c s b) := by
  have e1 : a.singleton = b.singleton := h _ h1
  have e2 : a.solar_position = b.solar_position := h _ h2
  have e3 : a.weather = b.weather := h _ h3
  have e4 : a.times = b.times := h _ h4
  have e5 : a.albedo = b.albedo := h _ h5
  have e6 : a.airmass = b.airmass := h _ h6
  unfold systemIrradiance
  rw [e1, e2, e3, e4, e5, e6]
  refine bind_same fun _ => bind_same fun _ => bind_same fun _ => bind_same fun _ => bind_same fun _ => bind_same fun _ =>
    bind_same fun _ => bind_same fun _ => bind_same fun _ => bind_same fun _ => bind_same fun _ => bind_same fun _ =>
    bind_same fun _ => ?_
  write h

private theorem assignTimes_same {F : List Fld} {a b : Results} (h : Agree F a b) (h1 : .weather ∈ F) :
    Same (.times :: F) (assignTimes a) (assignTimes b) := by
  have e1 : a.weather = b.weather := h _ h1
  unfold assignTimes
  rw [e1]
  cases b.weather with
  | none => simp [Same]
  | some w => cases w with
    | one w => show Agree _ _ _; write h
    | tuple ws => cases ws with
      | nil => simp [Same]
      | cons w ws => show Agree _ _ _; write h

private theorem assignWeather_same (sys : System) (d : PerArray DF) (a b : Results) :
    Same [.times, .singleton, .weather] (assignWeather sys d a) (assignWeather sys d b) := by
  apply assignTimes_same (F := [.singleton, .weather])
  · intro g hg
    simp only [List.mem_cons, List.not_mem_nil, or_false] at hg
    rcases hg with rfl | rfl <;> rfl
  · simp

private theorem prepareInputs_same (c : Chain) (s : Site) (d : PerArray DF) (a b : Results) :
    Same [.total_irrad, .aoi, .albedo, .airmass, .solar_position, .times, .singleton, .weather]
      (prepareInputs c s d a) (prepareInputs c s d b) := by
  unfold prepareInputs
  refine bind_same fun _ => bind_same fun _ => same_bind (assignWeather_same _ _ a b) fun a b h => ?_
  refine same_bind (prepSolarPos_same c s d h (by simp)) fun a b h => ?_
  refine same_bind (prepAirmass_same c s h (by simp)) fun a b h => ?_
  refine same_bind (prepFixed_same c (prepAlbedo_same c d h (by simp)) (by simp) (by simp)) fun a b h => ?_
  exact systemIrradiance_same c s h (by simp) (by simp) (by simp) (by simp) (by simp) (by simp)

private theorem assignTotalIrrad_same (d : PerArray DF) {F : List Fld} {a b : Results} (h : Agree F a b) (h1 : .singleton ∈ F) :
    Agree (.total_irrad :: F) (assignTotalIrrad d a) (assignTotalIrrad d b) := by
  have e1 : a.singleton = b.singleton := h _ h1
  unfold assignTotalIrrad
  rw [e1]
  write h

private theorem prepareInputsFromPoa_same (c : Chain) (s : Site) (d : PerArray DF) (a b : Results) :
    Same [.aoi, .airmass, .solar_position, .total_irrad, .times, .singleton, .weather]
      (prepareInputsFromPoa c s d a) (prepareInputsFromPoa c s d b) := by
  unfold prepareInputsFromPoa
  refine bind_same fun _ => same_bind (assignWeather_same _ _ a b) fun a b h => bind_same fun _ => ?_
  refine same_bind (prepSolarPos_same c s d (assignTotalIrrad_same d h (by simp)) (by simp)) fun a b h => ?_
  refine same_bind (prepAirmass_same c s h (by simp)) fun a b h => ?_
  exact prepFixed_same c h (by simp) (by simp)

private theorem runAoi_same (c : Chain) (s : Site) {F : List Fld} {a b : Results} (h : Agree F a b) (h1 : .singleton ∈ F)
    (h2 : .aoi ∈ F) : Same (.aoi_modifier :: F) (runAoi c s a) (runAoi c s b) := by
  have e1 : a.singleton = b.singleton := h _ h1
  have e2 : a.aoi = b.aoi := h _ h2
  unfold runAoi
  rw [e2]
  cases c.aoi
  case no_loss =>
    show Agree _ _ _
    rw [e1]; write h
  all_goals
    refine bind_same fun _ => bind_same fun _ => ?_
    show Agree _ _ _
    rw [e1]; write h

private theorem runSpectral_same (c : Chain) {F : List Fld} {a b : Results} (h : Agree F a b) (h1 : .singleton ∈ F)
    (h2 : .weather ∈ F) (h3 : .airmass ∈ F) : Same (.spectral_modifier :: F) (runSpectral c a) (runSpectral c b) := by
  have e1 : a.singleton = b.singleton := h _ h1
  have e2 : a.weather = b.weather := h _ h2
  have e3 : a.airmass = b.airmass := h _ h3
  unfold runSpectral
  cases c.spectral
  case no_loss => show Agree _ _ _; rw [e1]; write h
  case sapm =>
    simp only [e3]
    refine bind_same fun _ => bind_same fun _ => ?_
    show Agree _ _ _
    rw [e1]; write h
  case first_solar =>
    simp only [e2, e3]
    refine bind_same fun _ => bind_same fun _ => bind_same fun _ => bind_same fun _ => ?_
    show Agree _ _ _
    rw [e1]; write h

private theorem effModel_same (c : Chain) {F : List Fld} {a b : Results} (h : Agree F a b) (h1 : .singleton ∈ F)
    (h2 : .total_irrad ∈ F) (h3 : .spectral_modifier ∈ F) (h4 : .aoi_modifier ∈ F) :
    Same (.effective_irradiance :: F) (effectiveIrradianceModel c a) (effectiveIrradianceModel c b) := by
  have e1 : a.singleton = b.singleton := h _ h1
  have e2 : a.total_irrad = b.total_irrad := h _ h2
  have e3 : a.spectral_modifier = b.spectral_modifier := h _ h3
  have e4 : a.aoi_modifier = b.aoi_modifier := h _ h4
  have key : ∀ v, Same (.effective_irradiance :: F) (.ok { a with effective_irradiance := some (wrapIf a.singleton v) })
      (.ok { b with effective_irradiance := some (wrapIf b.singleton v) }) := by
    intro v; show Agree _ _ _; intro g hg; rw [e1]; revert g; write h
  cases a; cases b; dsimp only at e1 e2 e3 e4; subst e1 e2 e3 e4
  unfold effectiveIrradianceModel
  refine bind_same fun ti => bind_same fun sm => bind_same fun am => ?_
  cases ti with
  | tuple ti => refine bind_same fun _ => bind_same fun _ => bind_same fun _ => ?_; exact key _
  | one ti =>
    cases c.system.arrays with
    | nil => simp [Same]
    | cons x xs =>
      cases sm <;> cases am
      · exact bind_same fun _ => key _
      all_goals simp [Same]

private theorem runOptics_same (c : Chain) (s : Site) {F : List Fld} {a b : Results} (h : Agree F a b) (h1 : .singleton ∈ F)
    (h2 : .aoi ∈ F) (h3 : .weather ∈ F) (h4 : .airmass ∈ F) (h5 : .total_irrad ∈ F) :
    Same (.effective_irradiance :: .spectral_modifier :: .aoi_modifier :: F) (runOptics c s a) (runOptics c s b) := by
  unfold runOptics
  refine same_bind (runAoi_same c s h h1 h2) fun a b h => ?_
  refine same_bind (runSpectral_same c h (by simp [h1]) (by simp [h3]) (by simp [h4])) fun a b h => ?_
  exact effModel_same c h (by simp [h1]) (by simp [h5]) (by simp) (by simp)

private theorem runTemp_same (c : Chain) (s : Site) {F : List Fld} {a b : Results} (h : Agree F a b) (h1 : .singleton ∈ F)
    (h2 : .total_irrad ∈ F) (h3 : .effective_irradiance ∈ F) (h4 : .weather ∈ F) (h5 : .times ∈ F) :
    Same (.cell_temperature :: F) (runTemp c s a) (runTemp c s b) := by
  have e1 : a.singleton = b.singleton := h _ h1
  have e2 : a.total_irrad = b.total_irrad := h _ h2
  have e3 : a.effective_irradiance = b.effective_irradiance := h _ h3
  have e4 : a.weather = b.weather := h _ h4
  have e5 : a.times = b.times := h _ h5
  unfold runTemp
  rw [e1, e2, e3, e4, e5]
  refine bind_same fun _ => bind_same fun _ => bind_same fun _ => bind_same fun _ => bind_same fun _ => bind_same fun _ =>
    bind_same fun _ => bind_same fun _ => ?_
  write h

private theorem prepareTemperature_same (c : Chain) (s : Site) (d : PerArray DF) {F : List Fld} {a b : Results} (h : Agree F a b)
    (h1 : .singleton ∈ F) (h2 : .total_irrad ∈ F) (h3 : .effective_irradiance ∈ F) (h4 : .weather ∈ F) (h5 : .times ∈ F) :
    Same (.cell_temperature :: F) (prepareTemperature c s d a) (prepareTemperature c s d b) := by
  have e1 : a.singleton = b.singleton := h _ h1
  have e2 : a.total_irrad = b.total_irrad := h _ h2
  have e3 : a.effective_irradiance = b.effective_irradiance := h _ h3
  have key : ∀ v, Same (.cell_temperature :: F) (.ok { a with cell_temperature := v }) (.ok { b with cell_temperature := v }) := by
    intro v; show Agree _ _ _; write h
  have many : ∀ (poa : PerArray Ser) (dfs : List DF), Same (.cell_temperature :: F)
      ((ofPer poa).bind fun poa =>
        (collect ((dfs.zip (poa.zip (c.system.arrays.map PvArr.temperature_model_parameters))).map fun p =>
          givenCellTemperature c p.1 p.2.1 p.2.2)).bind fun given =>
        if given.all Option.isSome then .ok { a with cell_temperature := some (.tuple (given.filterMap id)) }
        else (runTemp c s a).bind fun r => (need r.cell_temperature).bind fun t => (ofPer t).bind fun t =>
          .ok { r with cell_temperature := some (.tuple ((given.zip t).map fun p => p.1.getD p.2)) })
      ((ofPer poa).bind fun poa =>
        (collect ((dfs.zip (poa.zip (c.system.arrays.map PvArr.temperature_model_parameters))).map fun p =>
          givenCellTemperature c p.1 p.2.1 p.2.2)).bind fun given =>
        if given.all Option.isSome then .ok { b with cell_temperature := some (.tuple (given.filterMap id)) }
        else (runTemp c s b).bind fun r => (need r.cell_temperature).bind fun t => (ofPer t).bind fun t =>
          .ok { r with cell_temperature := some (.tuple ((given.zip t).map fun p => p.1.getD p.2)) }) := by
    intro poa dfs
    refine bind_same fun _ => bind_same fun given => ?_
    by_cases hg : given.all Option.isSome = true
    · simp only [hg, if_true]; exact key _
    · simp only [hg]
      refine same_bind (runTemp_same c s h h1 h2 h3 h4 h5) fun a' b' h' => ?_
      have e : a'.cell_temperature = b'.cell_temperature := h' .cell_temperature (by simp)
      rw [e]
      refine bind_same fun _ => bind_same fun _ => ?_
      show Agree _ _ _
      have hF : Agree F a' b' := fun f hf => h' f (by simp [hf])
      write hF
  cases a; cases b; dsimp only at e1 e2 e3; subst e1 e2 e3
  unfold prepareTemperature
  refine bind_same fun _ => bind_same fun poa => ?_
  cases d with
  | tuple dfs => exact many _ _
  | one d =>
    by_cases hn : c.system.arrays.length = 1
    · simp only [hn, if_true]
      cases c.system.arrays with
      | nil => simp [Same]
      | cons x xs =>
        cases poa with
        | tuple p => simp [Same]
        | one p =>
          refine bind_same fun g => ?_
          cases g with
          | some t => exact key _
          | none =>
            refine same_mono (runTemp_same c s (F := F) ?_ h1 h2 h3 h4 h5) (fun f hf => hf)
            intro f hf
            have := h f hf
            cases f <;> first | rfl | exact this
    · simp only [hn, if_false]; exact many _ _

private theorem dcArgs_same (c : Chain) {F : List Fld} {a b : Results} (h : Agree F a b) (h1 : .effective_irradiance ∈ F)
    (h2 : .cell_temperature ∈ F) : dcArgs c a = dcArgs c b := by
  have e1 : a.effective_irradiance = b.effective_irradiance := h _ h1
  have e2 : a.cell_temperature = b.cell_temperature := h _ h2
  simp only [dcArgs, e1, e2]

/-- The single diode models also set `diode_params`. -/
def SetsDiode (c : Chain) : Prop := c.dc ∈ [some .desoto, some .cec, some .pvsyst]

private theorem setDc_same (sys : System) (dc : List Dc) {F : List Fld} {a b : Results} (h : Agree F a b) (h1 : .singleton ∈ F) :
    Agree (.dc :: F) (setDc a sys dc) (setDc b sys dc) := by
  have e1 : a.singleton = b.singleton := h _ h1
  unfold setDc
  rw [e1]
  write h

private theorem singlediode_same (c : Chain) (s : Site) (pc : PvArr → Fl → Fl → Except PyErr Five) {F : List Fld} {a b : Results}
    (h : Agree F a b) (h1 : .singleton ∈ F) (h2 : .effective_irradiance ∈ F) (h3 : .cell_temperature ∈ F) :
    Same (.diode_params :: .dc :: F) (runSinglediode c s pc a) (runSinglediode c s pc b) := by
  have e1 : a.singleton = b.singleton := h _ h1
  unfold runSinglediode
  rw [dcArgs_same c h h2 h3, e1]
  refine bind_same fun _ => bind_same fun _ => bind_same fun _ => bind_same fun fr => ?_
  have hd := setDc_same c.system (fr.map fun f => Dc.frame (f.map fun col => (col.1, fun i => fillna0 (col.2 i)))) h h1
  show Agree _ _ _
  write hd

private theorem runDc_same (c : Chain) (s : Site) {F : List Fld} {a b : Results} (h : Agree F a b) (h1 : .singleton ∈ F)
    (h2 : .effective_irradiance ∈ F) (h3 : .cell_temperature ∈ F) :
    Same (.dc :: F) (runDc c s a) (runDc c s b) ∧ (SetsDiode c → Same (.diode_params :: .dc :: F) (runDc c s a) (runDc c s b)) := by
  have sd := fun pc => singlediode_same c s pc h h1 h2 h3
  have mono : ∀ {x y}, Same (.diode_params :: .dc :: F) x y → Same (.dc :: F) x y := fun hh =>
    same_mono hh (fun f hf => by simp only [List.mem_cons] at hf ⊢; tauto)
  unfold runDc SetsDiode
  cases hd : c.dc with
  | none => simp [Same]
  | some m =>
    cases m with
    | desoto => exact ⟨mono (sd _), fun _ => sd _⟩
    | cec => exact ⟨mono (sd _), fun _ => sd _⟩
    | pvsyst => exact ⟨mono (sd _), fun _ => sd _⟩
    | sapm =>
      refine ⟨?_, by simp⟩
      unfold runSapm
      rw [dcArgs_same c h h2 h3]
      refine bind_same fun _ => bind_same fun _ => bind_same fun _ => ?_
      exact setDc_same _ _ h h1
    | pvwatts =>
      refine ⟨?_, by simp⟩
      unfold runPvwattsDc
      rw [dcArgs_same c h h2 h3]
      refine bind_same fun _ => bind_same fun _ => bind_same fun _ => bind_same fun _ => ?_
      exact setDc_same _ _ h h1

private theorem runOhmic_same (c : Chain) {F : List Fld} {a b : Results} (h : Agree F a b) (h1 : .singleton ∈ F) (h2 : .dc ∈ F) :
    Same F (runOhmic c a) (runOhmic c b) ∧
      (c.ohmic = .dc_ohms_from_percent → Same (.dc_ohmic_losses :: F) (runOhmic c a) (runOhmic c b)) := by
  have e1 : a.singleton = b.singleton := h _ h1
  have e2 : a.dc = b.dc := h _ h2
  have key : ∀ v w, Same (.dc_ohmic_losses :: F) (.ok { a with dc_ohmic_losses := v, dc := w })
      (.ok { b with dc_ohmic_losses := v, dc := w }) := by
    intro v w; show Agree _ _ _; write h
  unfold runOhmic
  cases ho : c.ohmic with
  | no_loss => exact ⟨h, by simp⟩
  | dc_ohms_from_percent =>
    have main : Same (.dc_ohmic_losses :: F) (runOhmic c a) (runOhmic c b) := by
      cases a; cases b; dsimp only at e1 e2; subst e1 e2
      unfold runOhmic
      rw [ho]
      refine bind_same fun dc => ?_
      cases dc with
      | tuple ds =>
        refine bind_same fun _ => bind_same fun v => ?_
        exact key _ _
      | one d =>
        match c.system.arrays with
        | [] => simp [Same]
        | [x] =>
          refine bind_same fun _ => bind_same fun v => ?_
          exact key _ _
        | _ :: _ :: _ => simp [Same]
    unfold runOhmic at main
    rw [ho] at main
    exact ⟨same_mono main (fun f hf => by simp [hf]), fun _ => main⟩

private theorem runLosses_same (c : Chain) {F : List Fld} {a b : Results} (h : Agree F a b) (h1 : .singleton ∈ F) (h2 : .dc ∈ F) :
    Same (.losses :: F) (runLosses c a) (runLosses c b) := by
  have e1 : a.singleton = b.singleton := h _ h1
  have e2 : a.dc = b.dc := h _ h2
  unfold runLosses
  cases c.losses with
  | no_loss => show Agree _ _ _; write h
  | pvwatts =>
    refine bind_same fun _ => ?_
    simp only [← e2]
    refine bind_same fun _ => ?_
    rw [e1]
    show Agree _ _ _
    write h

private theorem runAc_same (c : Chain) {F : List Fld} {a b : Results} (h : Agree F a b) (h2 : .dc ∈ F) :
    Same (.ac :: F) (runAc c a) (runAc c b) := by
  have e2 : a.dc = b.dc := h _ h2
  have key : ∀ v, Same (.ac :: F) (.ok { a with ac := v }) (.ok { b with ac := v }) := by
    intro v; show Agree _ _ _; write h
  cases a; cases b; dsimp only at e2; subst e2
  unfold runAc
  refine bind_same fun dc => ?_
  cases c.ac with
  | sandia => exact bind_same fun _ => bind_same fun _ => bind_same fun _ => key _
  | adr => cases dc with
    | tuple ds => simp [Same]
    | one d => exact bind_same fun _ => bind_same fun _ => bind_same fun _ => key _
  | pvwatts => exact bind_same fun _ => bind_same fun _ => key _

private theorem runFromEff_same (c : Chain) (s : Site) (d : PerArray DF) {F : List Fld} {a b : Results} (h : Agree F a b)
    (h1 : .singleton ∈ F) (h2 : .total_irrad ∈ F) (h3 : .effective_irradiance ∈ F) (h4 : .weather ∈ F) (h5 : .times ∈ F) :
    Same (.ac :: .losses :: .dc :: .cell_temperature :: F) (runFromEff c s d a) (runFromEff c s d b) ∧
    (SetsDiode c → Same [.diode_params] (runFromEff c s d a) (runFromEff c s d b)) ∧
    (c.ohmic = .dc_ohms_from_percent → Same [.dc_ohmic_losses] (runFromEff c s d a) (runFromEff c s d b)) := by
  unfold runFromEff
  refine ⟨?_, ?_, ?_⟩
  · refine same_bind (prepareTemperature_same c s d h h1 h2 h3 h4 h5) fun a b h => ?_
    refine same_bind (runDc_same c s h (by simp [h1]) (by simp [h3]) (by simp)).1 fun a b h => ?_
    refine same_bind (runOhmic_same c h (by simp [h1]) (by simp)).1 fun a b h => ?_
    refine same_bind (runLosses_same c h (by simp [h1]) (by simp)) fun a b h => ?_
    exact runAc_same c h (by simp)
  · intro hd
    refine same_bind (prepareTemperature_same c s d h h1 h2 h3 h4 h5) fun a b h => ?_
    refine same_bind ((runDc_same c s h (by simp [h1]) (by simp [h3]) (by simp)).2 hd) fun a b h => ?_
    refine same_bind (runOhmic_same c h (by simp [h1]) (by simp)).1 fun a b h => ?_
    refine same_bind (runLosses_same c h (by simp [h1]) (by simp)) fun a b h => ?_
    exact same_mono (runAc_same c h (by simp)) (by simp)
  · intro ho
    refine same_bind (prepareTemperature_same c s d h h1 h2 h3 h4 h5) fun a b h => ?_
    refine same_bind (runDc_same c s h (by simp [h1]) (by simp [h3]) (by simp)).1 fun a b h => ?_
    refine same_bind ((runOhmic_same c h (by simp [h1]) (by simp)).2 ho) fun a b h => ?_
    refine same_bind (runLosses_same c h (by simp [h1]) (by simp)) fun a b h => ?_
    exact same_mono (runAc_same c h (by simp)) (by simp)

/-- **C94**: whatever `results` held before, `run_model` raises the same exception or leaves the same values: of everything it
computes nothing depends on earlier runs.  (`diode_params` and `dc_ohmic_losses` are only set by models that compute them.) -/
theorem run_model_fresh (c : Chain) (s : Site) (x : Input) (a b : Results) :
    Same [.singleton, .weather, .times, .solar_position, .airmass, .albedo, .aoi, .total_irrad, .aoi_modifier, .spectral_modifier,
      .effective_irradiance, .cell_temperature, .dc, .losses, .ac] (runModel c s x a) (runModel c s x b) ∧
    (SetsDiode c → Same [.diode_params] (runModel c s x a) (runModel c s x b)) ∧
    (c.ohmic = .dc_ohms_from_percent → Same [.dc_ohmic_losses] (runModel c s x a) (runModel c s x b)) := by
  unfold runModel
  refine ⟨?_, fun hd => ?_, fun ho => ?_⟩
  · refine same_bind (prepareInputs_same c s _ a b) fun a b h => ?_
    refine same_bind (runOptics_same c s h (by simp) (by simp) (by simp) (by simp) (by simp)) fun a b h => ?_
    exact same_mono (runFromEff_same c s _ h (by simp) (by simp) (by simp) (by simp) (by simp)).1 (by simp)
  · refine same_bind (prepareInputs_same c s _ a b) fun a b h => ?_
    refine same_bind (runOptics_same c s h (by simp) (by simp) (by simp) (by simp) (by simp)) fun a b h => ?_
    exact (runFromEff_same c s _ h (by simp) (by simp) (by simp) (by simp) (by simp)).2.1 hd
  · refine same_bind (prepareInputs_same c s _ a b) fun a b h => ?_
    refine same_bind (runOptics_same c s h (by simp) (by simp) (by simp) (by simp) (by simp)) fun a b h => ?_
    exact (runFromEff_same c s _ h (by simp) (by simp) (by simp) (by simp) (by simp)).2.2 ho

/-- **C94**: `run_model_from_poa` (the albedo is not used and stays as it was). -/
theorem run_poa_fresh (c : Chain) (s : Site) (x : Input) (a b : Results) :
    Same [.singleton, .weather, .times, .solar_position, .airmass, .aoi, .total_irrad, .aoi_modifier, .spectral_modifier,
      .effective_irradiance, .cell_temperature, .dc, .losses, .ac] (runModelFromPoa c s x a) (runModelFromPoa c s x b) ∧
    (SetsDiode c → Same [.diode_params] (runModelFromPoa c s x a) (runModelFromPoa c s x b)) ∧
    (c.ohmic = .dc_ohms_from_percent → Same [.dc_ohmic_losses] (runModelFromPoa c s x a) (runModelFromPoa c s x b)) := by
  unfold runModelFromPoa
  refine ⟨?_, fun hd => ?_, fun ho => ?_⟩
  · refine same_bind (prepareInputsFromPoa_same c s _ a b) fun a b h => ?_
    refine same_bind (runOptics_same c s h (by simp) (by simp) (by simp) (by simp) (by simp)) fun a b h => ?_
    exact same_mono (runFromEff_same c s _ h (by simp) (by simp) (by simp) (by simp) (by simp)).1 (by simp)
  · refine same_bind (prepareInputsFromPoa_same c s _ a b) fun a b h => ?_
    refine same_bind (runOptics_same c s h (by simp) (by simp) (by simp) (by simp) (by simp)) fun a b h => ?_
    exact (runFromEff_same c s _ h (by simp) (by simp) (by simp) (by simp) (by simp)).2.1 hd
  · refine same_bind (prepareInputsFromPoa_same c s _ a b) fun a b h => ?_
    refine same_bind (runOptics_same c s h (by simp) (by simp) (by simp) (by simp) (by simp)) fun a b h => ?_
    exact (runFromEff_same c s _ h (by simp) (by simp) (by simp) (by simp) (by simp)).2.2 ho

/-- **C94**: `run_model_from_effective_irradiance` (solar position, air mass, angles and modifiers stay as they were). -/
theorem run_eff_fresh (c : Chain) (s : Site) (x : Input) (a b : Results) :
    Same [.singleton, .weather, .times, .total_irrad, .effective_irradiance, .cell_temperature, .dc, .losses, .ac]
      (runModelFromEff c s x a) (runModelFromEff c s x b) ∧
    (SetsDiode c → Same [.diode_params] (runModelFromEff c s x a) (runModelFromEff c s x b)) ∧
    (c.ohmic = .dc_ohms_from_percent → Same [.dc_ohmic_losses] (runModelFromEff c s x a) (runModelFromEff c s x b)) := by
  have start : ∀ (G : List Fld), (∀ a b : Results, Agree [.effective_irradiance, .total_irrad, .times, .singleton, .weather] a b →
      Same G (runFromEff c s (toTuple x) a) (runFromEff c s (toTuple x) b)) →
      Same G (runModelFromEff c s x a) (runModelFromEff c s x b) := by
    intro G hG
    unfold runModelFromEff
    refine bind_same fun _ => bind_same fun _ => same_bind (assignWeather_same _ _ a b) fun a b h => ?_
    refine bind_same fun e => hG _ _ ?_
    have h' := assignTotalIrrad_same (toTuple x) h (by simp)
    have e1 : (assignTotalIrrad (toTuple x) a).singleton = (assignTotalIrrad (toTuple x) b).singleton := h' .singleton (by simp)
    rw [e1]
    write h'
  refine ⟨start _ fun a b h => ?_, fun hd => start _ fun a b h => ?_, fun ho => start _ fun a b h => ?_⟩
  · exact same_mono (runFromEff_same c s _ h (by simp) (by simp) (by simp) (by simp) (by simp)).1 (by simp)
  · exact (runFromEff_same c s _ h (by simp) (by simp) (by simp) (by simp) (by simp)).2.1 hd
  · exact (runFromEff_same c s _ h (by simp) (by simp) (by simp) (by simp) (by simp)).2.2 ho

/-- **C94**: `complete_irradiance` on a tuple does not depend on earlier runs either ... -/
theorem complete_tuple_fresh (c : Chain) (s : Site) (ds : List DF) (a b : Results) :
    Same [.weather, .times, .solar_position] (completeIrradiance c s (.tuple ds) a) (completeIrradiance c s (.tuple ds) b) := by
  unfold completeIrradiance
  refine bind_same fun _ => ?_
  refine same_bind (assignTimes_same (F := [.weather]) ?_ (by simp)) fun a b h => ?_
  · intro f hf
    simp only [List.mem_singleton] at hf
    subst hf; rfl
  have e1 : a.times = b.times := h .times (by simp)
  have e2 : a.weather = b.weather := h .weather (by simp)
  rw [e1]
  refine bind_same fun _ => bind_same fun sp => ?_
  simp only [toTuple]
  rw [e2]
  cases hw : b.weather with
  | none => simp [Same]
  | some w => cases w with
    | one w => simp [Same]
    | tuple ws =>
      refine bind_same fun _ => ?_
      intro f hf
      simp only [List.mem_cons, List.not_mem_nil, or_false] at hf
      rcases hf with rfl | rfl | rfl
      · rfl
      · first | rfl | exact e1
      · rfl

/-- ... but on a bare DataFrame it does: it works when the last run was not on a tuple, and fails after a run on a tuple of
one. -/
theorem complete_frame_history (c : Chain) (s : Site) (d : DF) (a : Results) (h : a.singleton = true) (r : Results) :
    completeIrradiance c s (.frame d) a ≠ .ok r := by
  intro hr
  unfold completeIrradiance at hr
  obtain ⟨_, _, hr⟩ := bind_ok hr
  simp only [toTuple, wrapIf, h, if_true, assignTimes, Except.bind, need] at hr
  cases hs : s.solarPosition d.index c.solar_position_method none none <;> simp [hs] at hr

private theorem gather_ok {α : Type} {f : ℕ → Except PyErr α} {g : ℕ → α} (h : gather f = .ok g) (i : ℕ) : f i = .ok (g i) := by
  unfold gather at h
  split at h
  · rename_i hx
    injection h with h
    rw [← h]
    exact Classical.choose_spec hx i
  · split at h <;> simp at h

private theorem add_get (w : DF) (k : String) (x : Ser) (h : w.cols.get? k = none) :
    (w.add k x).cols.get? k = some x ∧ (∀ k' y, w.cols.get? k' = some y → (w.add k x).cols.get? k' = some y) ∧
    (w.add k x).index = w.index := by
  have key : ∀ (l : PyDict Ser) (k' : String), PyDict.get? (l ++ [(k, x)]) k' =
      (PyDict.get? l k').or (if k = k' then some x else none) := by
    intro l k'
    induction l with
    | nil => simp [PyDict.get?]
    | cons p l ih =>
      simp only [List.cons_append, PyDict.get?]
      split
      · simp
      · exact ih
  refine ⟨?_, fun k' y hy => ?_, rfl⟩
  · rw [DF.add, key, h]; simp
  · rw [DF.add, key, hy]; simp

/-- **C94, completed frames.**  Completing a frame keeps its index and all its columns.  If exactly `ghi` or `dhi` is missing, the
new column of that name closes `ghi = dhi + dni cos(zenith)` at every time; if `dni` is, the new column is what
`irradiance.complete_irradiance` gives for it with the clear-sky limit; otherwise the frame is unchanged. -/
theorem completed_frame (c : Chain) (s : Site) (sp : SolPos) (w w' : DF) (h : completeOne c s sp w = .ok w')
    (Z : ℕ → ℝ) (hZ : ∀ i, sp.zenith i = fin (Z i)) :
    w'.index = w.index ∧ (∀ k x, w.cols.get? k = some x → w'.cols.get? k = some x) ∧
    (∀ D N : ℕ → ℝ, w.cols.get? "ghi" = none → w.cols.get? "dhi" = some (fun i => fin (D i)) →
      w.cols.get? "dni" = some (fun i => fin (N i)) → w'.cols.get? "ghi" = some fun i => fin (D i + N i * Spec.cosDeg (Z i))) ∧
    (∀ G N : ℕ → ℝ, w.cols.get? "ghi" = some (fun i => fin (G i)) → w.cols.get? "dhi" = none →
      w.cols.get? "dni" = some (fun i => fin (N i)) → w'.cols.get? "dhi" = some fun i => fin (G i - N i * Spec.cosDeg (Z i))) ∧
    (∀ g d, w.cols.get? "ghi" = some g → w.cols.get? "dhi" = some d → w.cols.get? "dni" = none →
      ∃ cs n, s.clearskyDni w.index c.clearsky_model sp = .ok cs ∧ w'.cols.get? "dni" = some n ∧
        ∀ i, Irradiance.completeIrradiance (sp.zenith i) (some (g i)) (some (d i)) none (some (cs i)) = .ok ⟨g i, d i, n i⟩) ∧
    (¬ (w.cols.get? "ghi" = none ∧ w.cols.get? "dhi" ≠ none ∧ w.cols.get? "dni" ≠ none) →
      ¬ (w.cols.get? "ghi" ≠ none ∧ w.cols.get? "dhi" = none ∧ w.cols.get? "dni" ≠ none) →
      ¬ (w.cols.get? "ghi" ≠ none ∧ w.cols.get? "dhi" ≠ none ∧ w.cols.get? "dni" = none) → w' = w) := by
  unfold completeOne at h
  cases hg : w.cols.get? "ghi" with
  | none =>
    cases hd : w.cols.get? "dhi" with
    | none =>
      rw [hg, hd] at h
      cases hn : w.cols.get? "dni" <;> rw [hn] at h <;> simp only [Except.ok.injEq] at h <;> subst h <;> simp
    | some d =>
      cases hn : w.cols.get? "dni" with
      | none => rw [hg, hd, hn] at h; simp only [Except.ok.injEq] at h; subst h; simp
      | some n =>
        rw [hg, hd, hn] at h
        obtain ⟨o, ho, h⟩ := bind_ok h
        cases h
        obtain ⟨a1, a2, a3⟩ := add_get w "ghi" (fun i => (o i).ghi) hg
        refine ⟨a3, a2, fun D N _ e1 e2 => ?_, by simp, by simp, by simp⟩
        rw [a1]
        congr 1
        funext i
        have := gather_ok ho i
        injection e1 with e1; injection e2 with e2
        rw [e1, e2, hZ i] at this
        simp only [Irradiance.completeIrradiance, cosd_fin, fin_mul, fin_add, Except.ok.injEq] at this
        rw [← this]
  | some g =>
    cases hd : w.cols.get? "dhi" with
    | none =>
      cases hn : w.cols.get? "dni" with
      | none => rw [hg, hd, hn] at h; simp only [Except.ok.injEq] at h; subst h; simp
      | some n =>
        rw [hg, hd, hn] at h
        obtain ⟨o, ho, h⟩ := bind_ok h
        cases h
        obtain ⟨a1, a2, a3⟩ := add_get w "dhi" (fun i => (o i).dhi) hd
        refine ⟨a3, a2, by simp, fun G N e1 _ e2 => ?_, by simp, by simp⟩
        rw [a1]
        congr 1
        funext i
        have := gather_ok ho i
        injection e1 with e1; injection e2 with e2
        rw [e1, e2, hZ i] at this
        simp only [Irradiance.completeIrradiance, cosd_fin, fin_mul, fin_sub, Except.ok.injEq] at this
        rw [← this]
    | some d =>
      cases hn : w.cols.get? "dni" with
      | some n => rw [hg, hd, hn] at h; simp only [Except.ok.injEq] at h; subst h; simp
      | none =>
        rw [hg, hd, hn] at h
        obtain ⟨cs, hcs, h⟩ := bind_ok h
        obtain ⟨o, ho, h⟩ := bind_ok h
        cases h
        obtain ⟨a1, a2, a3⟩ := add_get w "dni" (fun i => (o i).dni) hn
        refine ⟨a3, a2, by simp, by simp, fun g' d' e1 e2 _ => ⟨cs, _, hcs, a1, fun i => ?_⟩, by simp⟩
        injection e1 with e1; injection e2 with e2
        subst e1 e2
        have := gather_ok ho i
        rw [this]
        simp only [Irradiance.completeIrradiance, Except.ok.injEq] at this
        rw [← this]

end Pvlib.Props.ChainRun
end
