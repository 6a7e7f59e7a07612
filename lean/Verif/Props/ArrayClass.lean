import Verif.Props.PvSystem
import Verif.Props.ToolsMisc
import Verif.Props.Transposition

/-! # Properties C86-C90: the methods of `Array` and the inverter and loss methods of `PVSystem` -/

noncomputable section
open scoped Classical
namespace Pvlib.Props.ArrayClass
open Fl Pvlib.Tools Pvlib.PvFunctions Pvlib.PvSystem Pvlib.Props.PvSystem

/-! ### Reading parameter dicts -/

/-- The number stored under a key, if any. -/
def entry (d : PyDict PVal) (key : String) : Option Fl :=
  match d.get? key with
  | some (.num x) => some x
  | _ => none

/-- Whatever is stored under the key is a number. -/
def Numeric (d : PyDict PVal) (key : String) : Prop := ∀ v, d.get? key = some v → ∃ x, v = .num x

theorem getNum_of {d : PyDict PVal} {k : String} {x : Fl} (h : entry d k = some x) : getNum d k = .ok x := by
  unfold entry at h
  split at h
  · rename_i y hy
    simp only [Option.some.injEq] at h; subst h
    simp [getNum, argOf, hy, Except.bind, PVal.toNum]
  · cases h

theorem getNum_missing {d : PyDict PVal} {k : String} (h : d.get? k = none) : getNum d k = .error (.keyError k) := by
  simp [getNum, argOf, h, Except.bind]

theorem getNums_of {d : PyDict PVal} {keys : List String} {xs : List Fl} (h : keys.map (entry d) = xs.map some) :
    getNums d keys = .ok xs := by
  induction keys generalizing xs with
  | nil => cases xs with
    | nil => rfl
    | cons x xs => simp at h
  | cons k ks ih =>
    cases xs with
    | nil => simp at h
    | cons x xs =>
      simp only [List.map_cons, List.cons.injEq] at h
      simp only [getNums, getNum_of h.1, ih h.2, Except.bind]

theorem getNums_missing {d : PyDict PVal} {pre post : List String} {k : String}
    (hp : ∀ k' ∈ pre, ∃ x, entry d k' = some x) (hk : d.get? k = none) :
    getNums d (pre ++ k :: post) = .error (.keyError k) := by
  induction pre with
  | nil => simp [getNums, getNum_missing hk, Except.bind]
  | cons a pre ih =>
    obtain ⟨x, hx⟩ := hp a (by simp)
    simp only [List.cons_append, getNums, getNum_of hx, ih (fun k' hk' => hp k' (by simp [hk'])), Except.bind]

private theorem numsOf_ok {d : PyDict PVal} (h : ∀ p ∈ d, ∃ x, p.2 = .num x) :
    ∃ kw, numsOf d = .ok kw ∧ ∀ k, kw.get? k = entry d k := by
  induction d with
  | nil => exact ⟨[], rfl, fun k => rfl⟩
  | cons p d ih =>
    obtain ⟨k0, v⟩ := p
    obtain ⟨x, hx⟩ := h (k0, v) (by simp)
    obtain ⟨kw, h1, h2⟩ := ih (fun p hp => h p (by simp [hp]))
    simp only at hx; subst hx
    refine ⟨(k0, x) :: kw, by simp [numsOf, PVal.toNum, h1, Except.bind], fun k => ?_⟩
    by_cases hk : k0 = k
    · simp [PyDict.get?, entry, hk]
    · have := h2 k
      simp only [entry] at this
      simp only [PyDict.get?, entry, hk, if_false, this]

private theorem mem_get {α : Type} {d : PyDict α} (hn : (d.map Prod.fst).Nodup) {p : String × α} (hp : p ∈ d) :
    PyDict.get? d p.1 = some p.2 := by
  induction d with
  | nil => cases hp
  | cons q d ih =>
    obtain ⟨k0, v⟩ := q
    simp only [List.map_cons, List.nodup_cons] at hn
    rcases List.mem_cons.mp hp with rfl | hp
    · simp [PyDict.get?]
    · have : k0 ≠ p.1 := by
        intro h; apply hn.1; rw [h]; exact List.mem_map_of_mem hp
      simp only [PyDict.get?, this, if_false]
      exact ih hn.2 hp

/-- Keyword arguments picked from a dict: those of the list that are present; other entries play no part. -/
theorem numKwargs_ok {keys : List String} {d : PyDict PVal} (h : ∀ k ∈ keys, Numeric d k) :
    ∃ kw, numKwargs keys d = .ok kw ∧ ∀ k, kw.get? k = if k ∈ keys then entry d k else none := by
  have hnd := (Props.ToolsMisc.buildKwargs_keys keys d).1
  obtain ⟨kw, h1, h2⟩ := numsOf_ok (d := buildKwargs keys d) (by
    intro p hp
    have hg := mem_get hnd hp
    rw [Props.ToolsMisc.buildKwargs_get] at hg
    by_cases hk : p.1 ∈ keys
    · rw [if_pos hk] at hg; exact h _ hk _ hg
    · rw [if_neg hk] at hg; cases hg)
  refine ⟨kw, h1, fun k => ?_⟩
  rw [h2, entry, Props.ToolsMisc.buildKwargs_get]
  by_cases hk : k ∈ keys <;> simp [hk, entry]

/-! ### C86: AC power -/

/-- **C86**: the model name is case-insensitive. -/
theorem ac_case (sys : System) (m m' : String) (h : pyLower m = pyLower m') (p : PerArray Fl) (v : Option (PerArray Fl)) :
    sys.getAc m p v = sys.getAc m' p v := by
  simp only [System.getAc, h]

example (sys : System) := ac_case sys "SANDIA" "sandia" (by decide +kernel) (.one (fin 100)) (some (.one (fin 40)))

/-- **C86**: any other name is refused. -/
theorem ac_unknown (sys : System) (m : String) (h : pyLower m ∉ ["sandia", "pvwatts", "adr"]) (p : PerArray Fl)
    (v : Option (PerArray Fl)) : sys.getAc m p v = .error .valueError := by
  simp only [List.mem_cons, List.not_mem_nil, or_false, not_or] at h
  simp [System.getAc, h.1, h.2.1, h.2.2]

example (sys : System) := ac_unknown sys "sma" (by decide +kernel) (.one (fin 100)) none

/-- The dict holds the parameters of the Sandia inverter model. -/
def SandiaDict (d : PyDict PVal) (q : Inverter.SandiaParams) : Prop :=
  entry d "Paco" = some q.Paco ∧ entry d "Pdco" = some q.Pdco ∧ entry d "Vdco" = some q.Vdco ∧ entry d "Pso" = some q.Pso ∧
  entry d "C0" = some q.C0 ∧ entry d "C1" = some q.C1 ∧ entry d "C2" = some q.C2 ∧ entry d "C3" = some q.C3 ∧
  entry d "Pnt" = some q.Pnt

private theorem sandiaParams_of {d : PyDict PVal} {q : Inverter.SandiaParams} (h : SandiaDict d q) : sandiaParams d = .ok q := by
  obtain ⟨h1, h2, h3, h4, h5, h6, h7, h8, h9⟩ := h
  rw [sandiaParams, getNums_of (xs := [q.Paco, q.Pnt, q.Pso, q.Pdco, q.Vdco, q.C0, q.C1, q.C2, q.C3])
    (by simp [h1, h2, h3, h4, h5, h6, h7, h8, h9])]
  rfl

/-- **C86**: one array: the single-input Sandia model, with bare values or singleton tuples. -/
theorem ac_sandia_one (sys : System) {m : String} (hm : pyLower m = "sandia") (h1 : sys.arrays.length = 1)
    {q : Inverter.SandiaParams} (hq : SandiaDict sys.inverter_parameters q) {p v : PerArray Fl} {x y : Fl}
    (hp : Supplies 1 False p [x]) (hv : Supplies 1 False v [y]) :
    sys.getAc m p (some v) = .ok (Inverter.sandia y x q) := by
  have e1 := (validate_iff sys p false [x]).mpr (by simpa [h1] using hp)
  have e2 := (validate_iff sys v false [y]).mpr (by simpa [h1] using hv)
  simp [System.getAc, hm, e1, e2, sandiaParams_of hq, Except.bind, h1]

/-- A fixed array and an inverter entry, for the examples. -/
def demoArr (mp tp : PyDict PVal) : PvArr :=
  mkArray (.fixed 30 180 (some "open_rack") none) (module_parameters := some mp) (temperature_model_parameters := some tp)
def demoInv : PyDict PVal :=
  [("Paco", .num (fin 250)), ("Pdco", .num (fin 259)), ("Vdco", .num (fin 40)), ("Pso", .num (fin 2)), ("C0", .num (fin (-4e-5))),
   ("C1", .num (fin (-1e-4))), ("C2", .num (fin 5e-4)), ("C3", .num (fin (-0.013))), ("Pnt", .num (fin 0.02))]
theorem demoInv_sandia : SandiaDict demoInv ⟨fin 250, fin 259, fin 40, fin 2, fin (-4e-5), fin (-1e-4), fin 5e-4, fin (-0.013),
    fin 0.02⟩ := by simp [SandiaDict, demoInv, entry, PyDict.get?]
example := ac_sandia_one ⟨[demoArr [] []], demoInv, []⟩ (m := "Sandia") (by decide +kernel) rfl demoInv_sandia
  (p := .one (fin 100)) (v := .tuple [fin 40]) (x := fin 100) (y := fin 40) ⟨Or.inr rfl, rfl⟩ ⟨rfl, rfl⟩

/-- **C86**: several arrays: the multi-input Sandia model on all of them. -/
theorem ac_sandia_many (sys : System) {m : String} (hm : pyLower m = "sandia") (h1 : 1 < sys.arrays.length)
    {q : Inverter.SandiaParams} (hq : SandiaDict sys.inverter_parameters q) {ps vs : List Fl}
    (hp : ps.length = sys.arrays.length) (hv : vs.length = sys.arrays.length) :
    sys.getAc m (.tuple ps) (some (.tuple vs)) = Inverter.sandiaMulti vs ps q := by
  have e1 := (validate_iff sys (.tuple ps) false ps).mpr ⟨hp, rfl⟩
  have e2 := (validate_iff sys (.tuple vs) false vs).mpr ⟨hv, rfl⟩
  simp [System.getAc, hm, e1, e2, sandiaParams_of hq, Except.bind, h1]

example := ac_sandia_many ⟨[demoArr [] [], demoArr [] []], demoInv, []⟩ (m := "Sandia") (by decide +kernel) (by simp)
  demoInv_sandia (ps := [fin 100, fin 80]) (vs := [fin 40, fin 41]) rfl rfl

/-- **C86**: PVWatts needs no voltage; with several arrays it is the inverter model of the total DC power.  The efficiencies come
from the inverter parameters when they are there. -/
theorem ac_pvwatts (sys : System) {m : String} (hm : pyLower m = "pvwatts") (h0 : sys.arrays ≠ []) {p : PerArray Fl} {ps : List Fl}
    (hp : Supplies sys.arrays.length False p ps) {pdc0 : Fl} (hpd : entry sys.inverter_parameters "pdc0" = some pdc0)
    (hn : Numeric sys.inverter_parameters "eta_inv_nom") (hr : Numeric sys.inverter_parameters "eta_inv_ref")
    (v : Option (PerArray Fl)) :
    sys.getAc m p v = .ok (Inverter.pvwatts (if sys.arrays.length = 1 then ps.headD 0 else Fl.sum ps) pdc0
      ((entry sys.inverter_parameters "eta_inv_nom").getD 0.96) ((entry sys.inverter_parameters "eta_inv_ref").getD 0.9637)) := by
  have e1 := (validate_iff sys p false ps).mpr (by simpa using hp)
  obtain ⟨kw, hk, hg⟩ := numKwargs_ok (keys := ["eta_inv_nom", "eta_inv_ref"]) (d := sys.inverter_parameters) (by
    intro k hk; simp only [List.mem_cons, List.not_mem_nil, or_false] at hk; rcases hk with rfl | rfl <;> assumption)
  have g1 := hg "eta_inv_nom"; have g2 := hg "eta_inv_ref"
  simp only [List.mem_cons, true_or, or_true, if_true] at g1 g2
  have hl := supplies_length hp
  have hlen : 0 < sys.arrays.length := List.length_pos_iff.mpr h0
  by_cases h1 : 1 < sys.arrays.length
  · have : ¬ sys.arrays.length = 1 := by omega
    simp [System.getAc, hm, e1, hk, getNum_of hpd, Except.bind, h1, this, kwOr, g1, g2, Inverter.pvwattsMulti]
  · have h2 : sys.arrays.length = 1 := by omega
    cases ps with
    | nil => simp at hl; omega
    | cons x xs => simp [System.getAc, hm, e1, hk, getNum_of hpd, Except.bind, h2, kwOr, g1, g2]

/-- **C86**: the ADR model is refused for several arrays. -/
theorem ac_adr_many (sys : System) {m : String} (hm : pyLower m = "adr") (h1 : 1 < sys.arrays.length) (p : PerArray Fl)
    (v : Option (PerArray Fl)) : sys.getAc m p v = .error .valueError := by
  simp [System.getAc, hm, h1]

example := ac_adr_many ⟨[demoArr [] [], demoArr [] []], demoInv, []⟩ (m := "ADR") (by decide +kernel) (by simp) (.one (fin 1)) none

/-- **C86**: and computes the ADR model for one. -/
theorem ac_adr_one (sys : System) {m : String} (hm : pyLower m = "adr") (h1 : sys.arrays.length = 1) {q : Inverter.AdrParams}
    (hq : adrParams sys.inverter_parameters = .ok q) {p v : PerArray Fl} {x y : Fl}
    (hp : Supplies 1 False p [x]) (hv : Supplies 1 False v [y]) :
    sys.getAc m p (some v) = .ok (Inverter.adr y x q) := by
  have e1 := (validate_iff sys p false [x]).mpr (by simpa [h1] using hp)
  have e2 := (validate_iff sys v false [y]).mpr (by simpa [h1] using hv)
  simp [System.getAc, hm, e1, e2, hq, Except.bind, h1]

example := ac_adr_one ⟨[demoArr [] []], [("Pnom", .num (fin 2000)), ("Vnom", .num (fin 320)), ("Pacmax", .num (fin 1960)),
    ("Pnt", .num (fin 0.2)), ("Vmax", .num (fin 400)), ("Vmin", .num (fin 150)), ("Vdcmax", .num (fin 480)), ("MPPTHi", .num (fin 400)),
    ("MPPTLow", .num (fin 250)), ("ADRCoefficients", .nums [fin 0.01, fin 0.02])], []⟩ (m := "adr") (by decide +kernel) rfl
  (q := ⟨fin 2000, fin 320, fin 1960, fin 0.2, [fin 0.01, fin 0.02], fin 400, fin 150, fin 480, fin 400, fin 250⟩)
  (by simp [adrParams, getNums, getNum, argOf, PyDict.get?, Except.bind, PVal.toNum])
  (p := .one (fin 1000)) (v := .one (fin 300)) (x := fin 1000) (y := fin 300) ⟨Or.inr rfl, rfl⟩ ⟨Or.inr rfl, rfl⟩

/-- **C86**: the power of the wrong number of arrays is refused, for every model. -/
theorem ac_mismatch (sys : System) {m : String} (hm : pyLower m ∈ ["sandia", "adr"]) {p : PerArray Fl} (v : Option (PerArray Fl))
    (h : ¬ ∃ ps, Supplies sys.arrays.length False p ps) : sys.getAc m p v = .error .valueError := by
  have e1 := validate_error sys p false (by simpa using h)
  simp only [List.mem_cons, List.not_mem_nil, or_false] at hm
  rcases hm with hm | hm
  · simp [System.getAc, hm, e1, Except.bind]
  · by_cases h1 : 1 < sys.arrays.length <;> simp [System.getAc, hm, e1, Except.bind, h1]

example := ac_mismatch ⟨[demoArr [] [], demoArr [] []], demoInv, []⟩ (m := "sandia") (by decide +kernel) (p := .tuple [fin 1])
  none (by rintro ⟨ps, h, -⟩; simp at h)

/-- **C86**: a voltage is indispensable for the Sandia model: ValueError with several arrays, TypeError with one. -/
theorem ac_sandia_no_voltage (sys : System) {m : String} (hm : pyLower m = "sandia") {p : PerArray Fl} {ps : List Fl}
    (hp : Supplies sys.arrays.length False p ps) :
    sys.getAc m p none = .error (if sys.arrays.length = 1 then .typeError else .valueError) := by
  have e1 := (validate_iff sys p false ps).mpr (by simpa using hp)
  by_cases h1 : sys.arrays.length = 1
  · have : validatePerArray sys (.one ()) = .ok [()] := by simp [validatePerArray, h1]
    simp [System.getAc, hm, e1, this, Except.bind, h1]
  · have : validatePerArray sys (.one ()) = .error .valueError := by simp [validatePerArray, Ne.symm h1]
    simp [System.getAc, hm, e1, this, Except.bind, h1]

example := ac_sandia_no_voltage ⟨[demoArr [] []], demoInv, []⟩ (m := "sandia") (by decide +kernel) (p := .tuple [fin 1]) (ps := [fin 1])
  ⟨rfl, rfl⟩

/-! ### C87: inferred temperature parameters and cell type -/

/-- **C87** (specification of the substring test). -/
theorem hasSub_iff (needle hay : String) :
    hasSub needle hay = true ↔ ∃ pre post : List Char, hay.toList = pre ++ needle.toList ++ post := by
  unfold hasSub
  rw [List.any_eq_true]
  constructor
  · rintro ⟨t, ht, hp⟩
    obtain ⟨pre, hpre⟩ := (List.mem_tails _ _).mp ht
    obtain ⟨post, hpost⟩ := List.isPrefixOf_iff_prefix.mp hp
    exact ⟨pre, post, by rw [List.append_assoc, hpost, hpre]⟩
  · rintro ⟨pre, post, h⟩
    refine ⟨needle.toList ++ post, (List.mem_tails _ _).mpr ⟨pre, by rw [h, List.append_assoc]⟩, ?_⟩
    exact List.isPrefixOf_iff_prefix.mpr ⟨post, rfl⟩

/-- **C87**: parameters that are given are never replaced by inferred ones. -/
theorem temps_given (m : Mount) (albedo : Option Fl) (st mod mt : Option String) (mp al : Option (PyDict PVal)) (n k : Fl)
    (t : PyDict PVal) : (mkArray m albedo st mod mt mp (some t) n k al).temperature_model_parameters = t := rfl

/-- The SAPM coefficients documented for a racking/module combination. -/
def sapmSet (a b dT : ℝ) : PyDict PVal := [("a", .num (fin a)), ("b", .num (fin b)), ("deltaT", .num (fin dT))]
/-- The PVsyst coefficients documented for a mounting. -/
def pvsystSet (uc : ℝ) : PyDict PVal := [("u_c", .num (fin uc)), ("u_v", .num (fin 0))]

/-- **C87**: the four combinations with SAPM coefficients. -/
theorem infer_sapm :
    inferTemperatureParams (some "open_rack") (some "glass_glass") = sapmSet (-3.47) (-0.0594) 3 ∧
    inferTemperatureParams (some "close_mount") (some "glass_glass") = sapmSet (-2.98) (-0.0471) 1 ∧
    inferTemperatureParams (some "open_rack") (some "glass_polymer") = sapmSet (-3.56) (-0.0750) 3 ∧
    inferTemperatureParams (some "insulated_back") (some "glass_polymer") = sapmSet (-2.81) (-0.0455) 0 := by
  refine ⟨?_, ?_, ?_, ?_⟩ <;>
    simp [inferTemperatureParams, fmtOpt, sapmTemps, List.lookup, sapmSet]

private theorem lookup_keys {β : Type} (l : List (String × β)) (s : String) (h : s ∉ l.map Prod.fst) : l.lookup s = none := by
  induction l with
  | nil => rfl
  | cons p l ih =>
    obtain ⟨k, v⟩ := p
    simp only [List.map_cons, List.mem_cons, not_or] at h
    have : (s == k) = false := by simpa using h.1
    simp only [List.lookup, this]
    exact ih h.2

/-- The names with SAPM coefficients. -/
def sapmNames : List String :=
  ["open_rack_glass_glass", "close_mount_glass_glass", "open_rack_glass_polymer", "insulated_back_glass_polymer"]

/-- **C87**: any other combination: the PVsyst coefficients of the first mounting whose name it contains, else nothing. -/
theorem infer_other (r m : Option String) (h : fmtOpt r ++ "_" ++ fmtOpt m ∉ sapmNames) :
    let name := (fmtOpt r ++ "_" ++ fmtOpt m).toList
    let contains (w : String) : Prop := ∃ pre post : List Char, name = pre ++ w.toList ++ post
    inferTemperatureParams r m =
      if contains "freestanding" then pvsystSet 29
      else if contains "insulated" then pvsystSet 15
      else if contains "semi_integrated" then pvsystSet 20
      else [] := by
  intro name contains
  have hl : sapmTemps.lookup (fmtOpt r ++ "_" ++ fmtOpt m) = none := by
    apply lookup_keys
    simpa [sapmTemps, sapmNames] using h
  have hc : ∀ w, (contains w ↔ hasSub w (fmtOpt r ++ "_" ++ fmtOpt m) = true) := fun w => (hasSub_iff w _).symm
  simp only [inferTemperatureParams, hl, hc]
  split_ifs <;> simp [pvsystTemps, pvsystSet]

/-- **C87**: nothing is inferred when neither is given. -/
theorem infer_none : inferTemperatureParams none none = [] := by
  rw [infer_other none none (by simp [fmtOpt, sapmNames])]
  have h : ∀ w, (∃ pre post : List Char, (fmtOpt none ++ "_" ++ fmtOpt none).toList = pre ++ w.toList ++ post) ↔
    hasSub w (fmtOpt none ++ "_" ++ fmtOpt none) = true := fun w => (hasSub_iff w _).symm
  simp only [h]
  have e1 : hasSub "freestanding" (fmtOpt none ++ "_" ++ fmtOpt none) = false := by decide +kernel
  have e2 : hasSub "insulated" (fmtOpt none ++ "_" ++ fmtOpt none) = false := by decide +kernel
  have e3 : hasSub "semi_integrated" (fmtOpt none ++ "_" ++ fmtOpt none) = false := by decide +kernel
  simp [e1, e2, e3]

/-- An `insulated_back` rack with a glass/glass module has no SAPM set and gets the PVsyst 'insulated' one. -/
example : inferTemperatureParams (some "insulated_back") (some "glass_glass") = pvsystSet 15 := by
  rw [infer_other _ _ (by simp [fmtOpt, sapmNames])]
  have h : ∀ w, (∃ pre post : List Char, (fmtOpt (some "insulated_back") ++ "_" ++ fmtOpt (some "glass_glass")).toList =
      pre ++ w.toList ++ post) ↔
    hasSub w (fmtOpt (some "insulated_back") ++ "_" ++ fmtOpt (some "glass_glass")) = true := fun w => (hasSub_iff w _).symm
  simp only [h]
  have e1 : hasSub "freestanding" (fmtOpt (some "insulated_back") ++ "_" ++ fmtOpt (some "glass_glass")) = false := by decide +kernel
  have e2 : hasSub "insulated" (fmtOpt (some "insulated_back") ++ "_" ++ fmtOpt (some "glass_glass")) = true := by decide +kernel
  simp [e1, e2]

private theorem lookup_mem {β : Type} {l : List (String × β)} {s : String} {v : β} (h : l.lookup s = some v) : (s, v) ∈ l := by
  induction l with
  | nil => cases h
  | cons p l ih =>
    obtain ⟨k, w⟩ := p
    by_cases hk : s = k
    · subst hk; simp [List.lookup] at h; simp [h]
    · have hk' : (s == k) = false := by simpa using hk
      simp only [List.lookup, hk'] at h
      exact List.mem_cons_of_mem _ (ih h)

/-- **C87**: the cell type comes from `Technology` when present, whatever `Material` says; from `Material` otherwise; and is
unknown (None) without either. -/
theorem cellType_priority (d : PyDict PVal) :
    (∀ s, d.get? "Technology" = some (.str s) →
      inferCellType d = match cellTypes.lookup s with | some c => .ok c | none => .error (.keyError s)) ∧
    (∀ s, d.get? "Technology" = none → d.get? "Material" = some (.str s) →
      inferCellType d = match cellTypes.lookup s with | some c => .ok c | none => .error (.keyError s)) ∧
    (d.get? "Technology" = none → d.get? "Material" = none → inferCellType d = .ok none) := by
  refine ⟨fun s h => ?_, fun s h h' => ?_, fun h h' => ?_⟩
  · simp only [inferCellType, h, cellTypeOf]; cases cellTypes.lookup s <;> rfl
  · simp only [inferCellType, h, h', cellTypeOf]; cases cellTypes.lookup s <;> rfl
  · simp only [inferCellType, h, h']

/-- **C87**: every cell type that is inferred has First Solar coefficients, so the spectral loss of a recognised module never
fails for want of coefficients. -/
theorem cellType_accepted {d : PyDict PVal} {m : String} (h : inferCellType d = .ok (some m)) :
    ∃ c, Spectrum.firstsolarTable.lookup (pyLower m) = some c := by
  have hc : ∀ v, cellTypeOf v = .ok (some m) → ∃ s, (s, some m) ∈ cellTypes := by
    intro v hv
    cases v with
    | str s =>
      simp only [cellTypeOf] at hv
      cases hl : cellTypes.lookup s with
      | none => rw [hl] at hv; cases hv
      | some c => rw [hl] at hv; simp only [Except.ok.injEq] at hv; subst hv; exact ⟨s, lookup_mem hl⟩
    | num x => cases hv
    | nums x => cases hv
  obtain ⟨s, hs⟩ : ∃ s, (s, some m) ∈ cellTypes := by
    unfold inferCellType at h
    split at h
    · exact hc _ h
    · split at h
      · exact hc _ h
      · simp at h
  have hm : m = "multisi" ∨ m = "monosi" ∨ m = "cigs" ∨ m = "asi" ∨ m = "cdte" := by
    simp only [cellTypes, List.mem_cons, Prod.mk.injEq, Option.some.injEq, reduceCtorEq, and_false, List.not_mem_nil, or_false,
      false_or] at hs
    tauto
  have e1 : pyLower "multisi" = "multisi" := by decide +kernel
  have e2 : pyLower "monosi" = "monosi" := by decide +kernel
  have e3 : pyLower "cigs" = "cigs" := by decide +kernel
  have e4 : pyLower "asi" = "asi" := by decide +kernel
  have e5 : pyLower "cdte" = "cdte" := by decide +kernel
  rcases hm with rfl | rfl | rfl | rfl | rfl <;> simp [e1, e2, e3, e4, e5, Spectrum.firstsolarTable, List.lookup]

example := cellType_accepted (d := [("Technology", .str "CdTe")]) (m := "cdte")
  (by simp [inferCellType, PyDict.get?, cellTypeOf, cellTypes, List.lookup])

/-- **C87**: the spectral loss uses coefficients stored with the module before any inferred cell type; without either it is
refused. -/
theorem firstSolar_choice (a : PvArr) (am pw : Fl) :
    (∀ c, a.module_parameters.get? "first_solar_spectral_coefficients" = some (.nums c) →
      firstSolarOf a am pw = Spectrum.firstsolar pw am none (some c)) ∧
    (∀ m, a.module_parameters.get? "first_solar_spectral_coefficients" = none → inferCellType a.module_parameters = .ok m →
      firstSolarOf a am pw = Spectrum.firstsolar pw am m none) ∧
    (a.module_parameters.get? "first_solar_spectral_coefficients" = none → inferCellType a.module_parameters = .ok none →
      firstSolarOf a am pw = .error .typeError) := by
  refine ⟨fun c h => ?_, fun m h h' => ?_, fun h h' => ?_⟩
  · simp only [firstSolarOf, h]
  · simp only [firstSolarOf, h, h', Except.bind]
  · simp only [firstSolarOf, h, h', Except.bind, Spectrum.firstsolar, Spectrum.chooseCoeff]

example : inferCellType [("Technology", .str "CdTe"), ("Material", .str "c-Si")] = .ok (some "cdte") := by
  simp [inferCellType, PyDict.get?, cellTypeOf, cellTypes, List.lookup]

/-! ### C88: cell temperature, incidence angle modifier, wiring resistance -/

variable (sigma : Fl) (a : PvArr) (w : Weather)

local notation "T[" k "]" => entry a.temperature_model_parameters k
local notation "M[" k "]" => entry a.module_parameters k

/-- **C88**: the SAPM cell temperature, from the array's own coefficients. -/
theorem temp_sapm {ca cb dT : Fl} (h1 : T["a"] = some ca) (h2 : T["b"] = some cb) (h3 : T["deltaT"] = some dT)
    (hr : Numeric a.temperature_model_parameters "irrad_ref") :
    a.getCellTemperature sigma w "sapm" =
      .ok fun i => Temperature.sapmCell (w.poa_global i) (w.temp_air i) (w.wind_speed i) ca cb dT (T["irrad_ref"].getD 1000) := by
  obtain ⟨kw, hk, hg⟩ := numKwargs_ok (keys := ["irrad_ref"]) (d := a.temperature_model_parameters) (by simpa using hr)
  have g := hg "irrad_ref"
  simp only [List.mem_cons, true_or, if_true] at g
  simp [PvArr.getCellTemperature, getNums_of (d := a.temperature_model_parameters) (xs := [ca, cb, dT]) (keys := ["a", "b", "deltaT"]) (by simp [h1, h2, h3]),
    hk, Except.bind, kwOr, g]

/-- **C88**: a missing SAPM coefficient is reported by name (the first one missing). -/
theorem temp_sapm_missing {k : String} {pre post : List String} (hk : ["a", "b", "deltaT"] = pre ++ k :: post)
    (hp : ∀ k' ∈ pre, ∃ x, T[k'] = some x) (hm : a.temperature_model_parameters.get? k = none) :
    a.getCellTemperature sigma w "sapm" = .error (.keyError k) := by
  simp [PvArr.getCellTemperature, hk, getNums_missing hp hm, Except.bind]

example (sigma : Fl) (w : Weather) := temp_sapm_missing sigma (demoArr [] [("a", .num (fin (-3.5)))]) w (k := "b") (pre := ["a"]) (post := ["deltaT"]) rfl
  (by simp [entry, demoArr, mkArray, PyDict.get?]) (by simp [demoArr, mkArray, PyDict.get?])

/-- **C88**: the PVsyst cell temperature: loss coefficients from the temperature parameters, efficiency and absorption from the
module parameters, each with its documented default. -/
theorem temp_pvsyst (h1 : Numeric a.module_parameters "module_efficiency") (h2 : Numeric a.module_parameters "alpha_absorption")
    (h3 : Numeric a.temperature_model_parameters "u_c") (h4 : Numeric a.temperature_model_parameters "u_v") :
    a.getCellTemperature sigma w "pvsyst" =
      .ok fun i => Temperature.pvsystCell (w.poa_global i) (w.temp_air i) (w.wind_speed i) (T["u_c"].getD 29) (T["u_v"].getD 0)
        (M["module_efficiency"].getD 0.1) (M["alpha_absorption"].getD 0.9) := by
  obtain ⟨km, hkm, hgm⟩ := numKwargs_ok (keys := ["module_efficiency", "alpha_absorption"]) (d := a.module_parameters)
    (by simp [h1, h2])
  obtain ⟨kt, hkt, hgt⟩ := numKwargs_ok (keys := ["u_c", "u_v"]) (d := a.temperature_model_parameters) (by simp [h3, h4])
  simp [PvArr.getCellTemperature, hkm, hkt, Except.bind, kwOr, hgm, hgt]

example (sigma : Fl) (w : Weather) := temp_pvsyst sigma (demoArr [("module_efficiency", .num (fin 0.2))] [("u_c", .num (fin 29))]) w
  (by simp [Numeric, demoArr, mkArray, PyDict.get?]) (by simp [Numeric, demoArr, mkArray, PyDict.get?])
  (by simp [Numeric, demoArr, mkArray, PyDict.get?]) (by simp [Numeric, demoArr, mkArray, PyDict.get?])

/-- **C88**: Faiman. -/
theorem temp_faiman (h1 : Numeric a.temperature_model_parameters "u0") (h2 : Numeric a.temperature_model_parameters "u1") :
    a.getCellTemperature sigma w "faiman" =
      .ok fun i => Temperature.faiman (w.poa_global i) (w.temp_air i) (w.wind_speed i) (T["u0"].getD 25) (T["u1"].getD 6.84) := by
  obtain ⟨kw, hk, hg⟩ := numKwargs_ok (keys := ["u0", "u1"]) (d := a.temperature_model_parameters) (by simp [h1, h2])
  simp [PvArr.getCellTemperature, hk, Except.bind, kwOr, hg]

example (sigma : Fl) (w : Weather) := temp_faiman sigma (demoArr [] [("u0", .num (fin 25))]) w
  (by simp [Numeric, demoArr, mkArray, PyDict.get?]) (by simp [Numeric, demoArr, mkArray, PyDict.get?])

/-- **C88**: Faiman with radiation, using the downward longwave irradiance when it is given. -/
theorem temp_faimanRad (h1 : Numeric a.temperature_model_parameters "u0") (h2 : Numeric a.temperature_model_parameters "u1")
    (h3 : Numeric a.temperature_model_parameters "sky_view") (h4 : Numeric a.temperature_model_parameters "emissivity") :
    a.getCellTemperature sigma w "faiman_rad" =
      .ok fun i => Temperature.faimanRad sigma (w.poa_global i) (w.temp_air i) (w.wind_speed i)
        (w.longwave_down.map fun s => s i) (T["u0"].getD 25) (T["u1"].getD 6.84) (T["sky_view"].getD 1)
        (T["emissivity"].getD 0.88) := by
  obtain ⟨kw, hk, hg⟩ := numKwargs_ok (keys := ["u0", "u1", "sky_view", "emissivity"]) (d := a.temperature_model_parameters)
    (by simp [h1, h2, h3, h4])
  simp [PvArr.getCellTemperature, hk, Except.bind, kwOr, hg]

example (sigma : Fl) (w : Weather) := temp_faimanRad sigma (demoArr [] [("emissivity", .num (fin 0.9))]) w
  (by simp [Numeric, demoArr, mkArray, PyDict.get?]) (by simp [Numeric, demoArr, mkArray, PyDict.get?])
  (by simp [Numeric, demoArr, mkArray, PyDict.get?]) (by simp [Numeric, demoArr, mkArray, PyDict.get?])

/-- **C88**: Fuentes; the module height is the mount's, when it has one. -/
theorem temp_fuentes {noct : Fl} (hn : T["noct_installed"] = some noct)
    (hk : ∀ k ∈ ["wind_height", "emissivity", "absorption", "surface_tilt", "module_width", "module_length"],
      Numeric a.temperature_model_parameters k) :
    a.getCellTemperature sigma w "fuentes" =
      .ok (Temperature.fuentes w.poa_global w.temp_air w.wind_speed w.hours noct (a.mount.height.getD 5)
        (T["wind_height"].getD 9.144) (T["emissivity"].getD 0.84) (T["absorption"].getD 0.83) (T["surface_tilt"].getD 30)
        (T["module_width"].getD 0.31579) (T["module_length"].getD 1.2)) := by
  obtain ⟨kw, hk, hg⟩ := numKwargs_ok hk
  simp [PvArr.getCellTemperature, getNum_of hn, hk, Except.bind, kwOr, hg]

example (sigma : Fl) (w : Weather) := temp_fuentes sigma (demoArr [] [("noct_installed", .num (fin 45)), ("wind_height", .num (fin 10))]) w (noct := fin 45)
  (by simp [entry, demoArr, mkArray, PyDict.get?]) (by simp [Numeric, demoArr, mkArray, PyDict.get?])

/-- **C88**: SAM's NOCT model, with the effective irradiance when it is given; only array heights 1 and 2 exist. -/
theorem temp_noctSam {noct eff : Fl} (hn : T["noct"] = some noct) (he : T["module_efficiency"] = some eff)
    (hk : ∀ k ∈ ["transmittance_absorptance", "array_height", "mount_standoff"], Numeric a.temperature_model_parameters k) :
    (∃ f, (∀ i, Temperature.noctSam (w.poa_global i) (w.temp_air i) (w.wind_speed i) noct eff
            (w.effective_irradiance.map fun s => s i) (T["transmittance_absorptance"].getD 0.9) (T["array_height"].getD 1)
            (T["mount_standoff"].getD 4) = .ok (f i)) ∧ a.getCellTemperature sigma w "noct_sam" = .ok f) ∨
      ((¬ eqv (T["array_height"].getD 1) 1 ∧ ¬ eqv (T["array_height"].getD 1) 2) ∧
        a.getCellTemperature sigma w "noct_sam" = .error .valueError) := by
  obtain ⟨kw, hk, hg⟩ := numKwargs_ok hk
  have e1 : a.getCellTemperature sigma w "noct_sam" = (Temperature.noctSam (w.poa_global 0) (w.temp_air 0) (w.wind_speed 0) noct eff
            (w.effective_irradiance.map fun s => s 0) (T["transmittance_absorptance"].getD 0.9) (T["array_height"].getD 1)
            (T["mount_standoff"].getD 4)).bind fun _ => .ok fun i =>
        (Temperature.noctSam (w.poa_global i) (w.temp_air i) (w.wind_speed i) noct eff
            (w.effective_irradiance.map fun s => s i) (T["transmittance_absorptance"].getD 0.9) (T["array_height"].getD 1)
            (T["mount_standoff"].getD 4)).toOption.getD nan := by
    simp [PvArr.getCellTemperature, getNums_of (d := a.temperature_model_parameters) (xs := [noct, eff]) (keys := ["noct", "module_efficiency"]) (by simp [hn, he]), hk,
      Except.bind, kwOr, hg]
  rw [e1]
  unfold Temperature.noctSam
  by_cases h1 : eqv (T["array_height"].getD 1) 1
  · left
    simp only [h1, if_true, Except.bind, Except.toOption, Option.getD_some]
    exact ⟨_, fun i => rfl, rfl⟩
  · by_cases h2 : eqv (T["array_height"].getD 1) 2
    · left
      simp only [h1, h2, if_true, if_false, Except.bind, Except.toOption, Option.getD_some]
      exact ⟨_, fun i => rfl, rfl⟩
    · right
      simp only [h1, h2, if_false, Except.bind, not_false_eq_true, and_self]

example (sigma : Fl) (w : Weather) := temp_noctSam sigma (demoArr [] [("noct", .num (fin 45)), ("module_efficiency", .num (fin 0.2))]) w (noct := fin 45)
  (eff := fin 0.2) (by simp [entry, demoArr, mkArray, PyDict.get?]) (by simp [entry, demoArr, mkArray, PyDict.get?])
  (by intro k hk; fin_cases hk <;> simp [Numeric, demoArr, mkArray, PyDict.get?])

/-- **C88**: Ross: from the NOCT or from `k`, exactly one of which must be present; the wind plays no part. -/
theorem temp_ross (h1 : Numeric a.temperature_model_parameters "noct") (h2 : Numeric a.temperature_model_parameters "k") :
    (∀ n, T["noct"] = some n → T["k"] = none →
      a.getCellTemperature sigma w "ross" = .ok fun i => w.temp_air i + (n - 20) / 80 * w.poa_global i * 0.1) ∧
    (∀ k, T["noct"] = none → T["k"] = some k →
      a.getCellTemperature sigma w "ross" = .ok fun i => w.temp_air i + k * w.poa_global i) ∧
    ((T["noct"].isSome ↔ T["k"].isSome) → a.getCellTemperature sigma w "ross" = .error .valueError) := by
  obtain ⟨kw, hk, hg⟩ := numKwargs_ok (keys := ["noct", "k"]) (d := a.temperature_model_parameters) (by simp [h1, h2])
  have g1 := hg "noct"; have g2 := hg "k"
  simp only [List.mem_cons, true_or, or_true, if_true] at g1 g2
  refine ⟨fun n e1 e2 => ?_, fun k e1 e2 => ?_, fun e => ?_⟩
  · simp [PvArr.getCellTemperature, hk, Except.bind, g1, g2, e1, e2, Temperature.ross, Except.toOption]
  · simp [PvArr.getCellTemperature, hk, Except.bind, g1, g2, e1, e2, Temperature.ross, Except.toOption]
  · cases e1 : T["noct"] <;> cases e2 : T["k"] <;> simp [e1, e2] at e <;>
      simp [PvArr.getCellTemperature, hk, Except.bind, g1, g2, e1, e2, Temperature.ross]

example (sigma : Fl) (w : Weather) := (temp_ross sigma (demoArr [] [("noct", .num (fin 45))]) w
  (by simp [Numeric, demoArr, mkArray, PyDict.get?]) (by simp [Numeric, demoArr, mkArray, PyDict.get?])).1 (fin 45)
  (by simp [entry, demoArr, mkArray, PyDict.get?]) (by simp [entry, demoArr, mkArray, PyDict.get?])

/-- **C88**: any other name (also one in capitals) is refused. -/
theorem temp_unknown {m : String} (h : m ∉ ["sapm", "pvsyst", "faiman", "faiman_rad", "fuentes", "noct_sam", "ross"]) :
    a.getCellTemperature sigma w m = .error .valueError := by
  simp only [List.mem_cons, List.not_mem_nil, or_false, not_or] at h
  simp [PvArr.getCellTemperature, h]

example (sigma : Fl) (a : PvArr) (w : Weather) := temp_unknown sigma a w (m := "SAPM") (by decide)

/-- **C88**: an array with inferred SAPM coefficients can always compute the SAPM cell temperature, and one with inferred PVsyst
coefficients the PVsyst one with those coefficients. -/
theorem temp_inferred (h : a.temperature_model_parameters = inferTemperatureParams a.mount.racking a.module_type) :
    (fmtOpt a.mount.racking ++ "_" ++ fmtOpt a.module_type ∈ sapmNames → ∃ f, a.getCellTemperature sigma w "sapm" = .ok f) := by
  intro hn
  have : ∃ x y z, a.temperature_model_parameters = sapmSet x y z := by
    rw [h]
    simp only [sapmNames, List.mem_cons, List.not_mem_nil, or_false] at hn
    rcases hn with hn | hn | hn | hn <;> simp only [inferTemperatureParams, hn, sapmTemps]
    · exact ⟨-3.47, -0.0594, 3, by simp [List.lookup, sapmSet]⟩
    · exact ⟨-2.98, -0.0471, 1, by simp [List.lookup, sapmSet]⟩
    · exact ⟨-3.56, -0.0750, 3, by simp [List.lookup, sapmSet]⟩
    · exact ⟨-2.81, -0.0455, 0, by simp [List.lookup, sapmSet]⟩
  obtain ⟨x, y, z, hx⟩ := this
  refine ⟨_, temp_sapm sigma a w (ca := fin x) (cb := fin y) (dT := fin z) ?_ ?_ ?_ ?_⟩
  all_goals simp [hx, sapmSet, entry, PyDict.get?, Numeric]

example (sigma : Fl) (w : Weather) := temp_inferred sigma (mkArray (.fixed 30 180 (some "open_rack") none) (module_type := some "glass_glass")) w
  (by simp only [mkArray, Option.getD_none]) (by simp [mkArray, Mount.racking, fmtOpt, sapmNames])

/-- **C88**: the incidence angle models, case-insensitive, with the documented defaults. -/
theorem iam_models (mk : String → List Fl → List Fl → Except PyErr (Fl → Fl)) (aoi : Fl) (m : String) :
    (pyLower m = "ashrae" → Numeric a.module_parameters "b" → a.getIam mk aoi m = .ok (Iam.ashrae aoi (M["b"].getD (fin 0.05)))) ∧
    (pyLower m = "physical" → (∀ k ∈ ["n", "K", "L", "n_ar"], Numeric a.module_parameters k) → a.getIam mk aoi m =
      .ok (Iam.physical aoi (M["n"].getD (fin 1.526)) (M["K"].getD 4) (M["L"].getD (fin 0.002)) M["n_ar"])) ∧
    (pyLower m = "martin_ruiz" → Numeric a.module_parameters "a_r" →
      a.getIam mk aoi m = Iam.martinRuiz aoi (M["a_r"].getD (fin 0.16))) ∧
    (pyLower m = "schlick" → a.getIam mk aoi m = .ok (Iam.schlick aoi)) ∧
    (pyLower m = "sapm" → ∀ B0 B1 B2 B3 B4 B5, M["B0"] = some B0 → M["B1"] = some B1 → M["B2"] = some B2 → M["B3"] = some B3 →
      M["B4"] = some B4 → M["B5"] = some B5 → a.getIam mk aoi m = .ok (Iam.sapm aoi B0 B1 B2 B3 B4 B5)) ∧
    (pyLower m ∉ ["ashrae", "physical", "martin_ruiz", "interp", "schlick", "sapm"] → a.getIam mk aoi m = .error .valueError) := by
  refine ⟨fun hm h => ?_, fun hm h => ?_, fun hm h => ?_, fun hm => ?_, fun hm B0 B1 B2 B3 B4 B5 h0 h1 h2 h3 h4 h5 => ?_,
    fun hm => ?_⟩
  · obtain ⟨kw, hk, hg⟩ := numKwargs_ok (keys := ["b"]) (d := a.module_parameters) (by simpa using h)
    simp [PvArr.getIam, hm, hk, Except.bind, kwOr, hg]
  · obtain ⟨kw, hk, hg⟩ := numKwargs_ok h
    simp [PvArr.getIam, hm, hk, Except.bind, kwOr, hg]
  · obtain ⟨kw, hk, hg⟩ := numKwargs_ok (keys := ["a_r"]) (d := a.module_parameters) (by simpa using h)
    simp [PvArr.getIam, hm, hk, Except.bind, kwOr, hg]
  · simp [PvArr.getIam, hm]
  · simp [PvArr.getIam, hm, getNums_of (d := a.module_parameters) (xs := [B5, B4, B3, B2, B1, B0]) (keys := ["B5", "B4", "B3", "B2", "B1", "B0"])
      (by simp [h0, h1, h2, h3, h4, h5]), Except.bind]
  · simp only [List.mem_cons, List.not_mem_nil, or_false, not_or] at hm
    simp [PvArr.getIam, hm]

example (mk : String → List Fl → List Fl → Except PyErr (Fl → Fl)) :=
  (iam_models (demoArr [("b", .num (fin 0.04))] []) mk (fin 50) "ASHRAE").1 (by decide +kernel)
    (by simp [Numeric, demoArr, mkArray, PyDict.get?])

/-- The module parameters give the maximum power voltage and current under this pair of names. -/
def HasMp (d : PyDict PVal) (names : String × String) : Prop := d.get? names.1 ≠ none ∧ d.get? names.2 ≠ none

/-- **C88**: the wiring resistance uses the first naming scheme (CEC, then SAPM, then PVsyst) that is complete in the module
parameters; without any it is refused; without `dc_ohmic_percent` the missing key is reported. -/
theorem dcOhms_choice :
    (∀ names v i pct, (names = ("V_mp_ref", "I_mp_ref") ∨
        (names = ("Vmpo", "Impo") ∧ ¬ HasMp a.module_parameters ("V_mp_ref", "I_mp_ref")) ∨
        (names = ("Vmpp", "Impp") ∧ ¬ HasMp a.module_parameters ("V_mp_ref", "I_mp_ref") ∧
          ¬ HasMp a.module_parameters ("Vmpo", "Impo"))) →
      M[names.1] = some v → M[names.2] = some i →
      (entry a.array_losses_parameters "dc_ohmic_percent" = some pct →
        a.dcOhms = .ok (dcOhmsFromPercent v i pct a.modules_per_string a.strings)) ∧
      (a.array_losses_parameters.get? "dc_ohmic_percent" = none → a.dcOhms = .error (.keyError "dc_ohmic_percent"))) ∧
    ((∀ names ∈ [("V_mp_ref", "I_mp_ref"), ("Vmpo", "Impo"), ("Vmpp", "Impp")], ¬ HasMp a.module_parameters names) →
      a.dcOhms = .error .valueError) := by
  have hk : ∀ n : String × String, (hasKey a.module_parameters n.1 && hasKey a.module_parameters n.2) = true ↔
      HasMp a.module_parameters n := by
    intro n; simp [hasKey, HasMp, Option.isSome_iff_ne_none]
  have hk1 := hk ("V_mp_ref", "I_mp_ref"); have hk2 := hk ("Vmpo", "Impo"); have hk3 := hk ("Vmpp", "Impp")
  have he : ∀ k x, M[k] = some x → a.module_parameters.get? k ≠ none := by
    intro k x h h'; simp [entry, h'] at h
  constructor
  · intro names v i pct hn hv hi
    have hmp : HasMp a.module_parameters names := ⟨he _ _ hv, he _ _ hi⟩
    rcases hn with rfl | ⟨rfl, h1⟩ | ⟨rfl, h1, h2⟩
    · have := hk1.mpr hmp
      constructor
      · intro hp; simp only [PvArr.dcOhms, this, if_true, getNum_of hv, getNum_of hi, getNum_of hp, Except.bind]
      · intro hp; simp only [PvArr.dcOhms, this, if_true, getNum_of hv, getNum_of hi, getNum_missing hp, Except.bind]
    · have e1 := hk2.mpr hmp
      have e0 := (not_congr hk1).mpr h1
      constructor
      · intro hp; simp only [PvArr.dcOhms, e0, e1, if_true, getNum_of hv, getNum_of hi, getNum_of hp, Except.bind]; simp
      · intro hp; simp only [PvArr.dcOhms, e0, e1, if_true, getNum_of hv, getNum_of hi, getNum_missing hp, Except.bind]; simp
    · have e2 := hk3.mpr hmp
      have e0 := (not_congr hk1).mpr h1
      have e1 := (not_congr hk2).mpr h2
      constructor
      · intro hp; simp only [PvArr.dcOhms, e0, e1, e2, if_true, getNum_of hv, getNum_of hi, getNum_of hp, Except.bind]; simp
      · intro hp; simp only [PvArr.dcOhms, e0, e1, e2, if_true, getNum_of hv, getNum_of hi, getNum_missing hp, Except.bind]; simp
  · intro h
    have e0 := (not_congr hk1).mpr (h _ (by simp))
    have e1 := (not_congr hk2).mpr (h _ (by simp))
    have e2 := (not_congr hk3).mpr (h _ (by simp))
    simp only [PvArr.dcOhms, e0, e1, e2]; simp

/-! ### C89: irradiance on an array -/

/-- **C89**: on a fixed mount the irradiance is that of `get_total_irradiance` at the mount's tilt and azimuth; the array's albedo,
the extraterrestrial irradiance of the instant (1367 W/m2 when the time is unknown) and the Kasten-Young air mass of the zenith are
used for what is not given. -/
theorem irradiance_fixed (tb : Tables) {t az0 : Fl} {r : Option String} {hgt : Option Fl} (hm : a.mount = .fixed t az0 r hgt)
    (extra : Option Fl) (z az dni ghi dhi : Fl) (dx am al : Option Fl) (model : String) (kw : IrrKwargs) :
    a.getIrradiance tb extra z az dni ghi dhi dx am al model kw =
      Irradiance.getTotalIrradiance tb.perezTable tb.spline t az0 z az dni ghi dhi
        (some (match dx, extra with | some x, _ => x | none, some e => e | none, none => 1367))
        (some (match am with | some x => x | none => Atmosphere.kastenyoung z))
        (match al with | some x => x | none => a.albedo) kw.surface_type model kw.model_perez kw.diffuse_components := by
  cases dx <;> cases extra <;> cases am <;> cases al <;> simp [PvArr.getIrradiance, hm, Mount.orientation]

example (tb : Tables) := irradiance_fixed (demoArr [] []) tb (t := 30) (az0 := 180) rfl none (fin 40) (fin 150) (fin 700) (fin 600)
  (fin 120) none none none "isotropic" {}

/-- **C89**: and on a tracker at the orientation `singleaxis` computes for that instant. -/
theorem irradiance_tracker (tb : Tables) {at_ aa gcr cat : Fl} {ma : Tracking.MaxAngle} {bt : Bool} {r : Option String}
    {hgt : Option Fl} (hm : a.mount = .tracker at_ aa ma bt gcr cat r hgt)
    (extra : Option Fl) (z az dni ghi dhi : Fl) (dx am al : Option Fl) (model : String) (kw : IrrKwargs) :
    a.getIrradiance tb extra z az dni ghi dhi dx am al model kw =
      let o := Tracking.singleaxis z az at_ aa ma bt gcr cat
      let held : PvArr := { a with mount := Mount.fixed o.surface_tilt o.surface_azimuth r hgt }
      held.getIrradiance tb extra z az dni ghi dhi dx am al model kw := by
  simp [PvArr.getIrradiance, hm, Mount.orientation]

example (tb : Tables) := irradiance_tracker (mkArray (.tracker 0 180 (.scalar 60) true (fin 0.3) 0 none none)) tb rfl none (fin 40)
  (fin 150) (fin 700) (fin 600) (fin 120) none none none "isotropic" {}

/-- **C89**: with the default model no argument can make it fail: the extraterrestrial irradiance is always supplied. -/
theorem irradiance_default_ok (tb : Tables) (extra : Option Fl) (z az dni ghi dhi : Fl) (dx am al : Option Fl) :
    ∃ poa, a.getIrradiance tb extra z az dni ghi dhi dx am al = .ok poa := by
  have e : pyLower "haydavies" = "haydavies" := by decide +kernel
  simp [PvArr.getIrradiance, Irradiance.getTotalIrradiance, Irradiance.getSkyDiffuse, e, Irradiance.groundDiffuse, bind, Except.bind,
    pure, Except.pure]

/-- **C89**: the incidence angle of an array is that of its orientation. -/
theorem aoi_fixed {t az0 : Fl} {r : Option String} {hgt : Option Fl} (hm : a.mount = .fixed t az0 r hgt) (z az : Fl) :
    a.getAoi z az = Irradiance.aoi t az0 z az := by
  simp [PvArr.getAoi, hm, Mount.orientation]

example := aoi_fixed (demoArr [] []) (t := 30) (az0 := 180) rfl (fin 40) (fin 150)

/-! ### C90: losses and module parameters -/

/-- **C90**: the PVWatts losses of a system: each category from the loss parameters, else its documented default; other entries
play no part. -/
theorem losses_value (sys : System) (h : ∀ k ∈ lossKeys, Numeric sys.losses_parameters k) :
    let L (k : String) (d : Fl) : Fl := (entry sys.losses_parameters k).getD d
    sys.pvwattsLosses = .ok (PvFunctions.pvwattsLosses [L "soiling" 2, L "shading" 3, L "snow" 0, L "mismatch" 2, L "wiring" 2,
      L "connections" (fin 0.5), L "lid" (fin 1.5), L "nameplate_rating" 1, L "age" 0, L "availability" 3]) := by
  intro L
  obtain ⟨kw, hk, hg⟩ := numKwargs_ok h
  simp only [System.pvwattsLosses, hk, Except.bind, kwOr, hg]
  simp [lossKeys, pvwattsDefaults, L]

example := losses_value ⟨[], [], [("soiling", .num (fin 5)), ("age", .num (fin 1))]⟩ (by
  intro k hk
  fin_cases hk <;> simp [Numeric, PyDict.get?])

/-- The dict holds the De Soto parameters. -/
def DesotoDict (d : PyDict PVal) (alpha a_ref IL Io Rsh Rs : Fl) : Prop :=
  entry d "alpha_sc" = some alpha ∧ entry d "a_ref" = some a_ref ∧ entry d "I_L_ref" = some IL ∧ entry d "I_o_ref" = some Io ∧
  entry d "R_sh_ref" = some Rsh ∧ entry d "R_s" = some Rs

theorem numeric_of_entry {d : PyDict PVal} {k : String} {x : Fl} (h : entry d k = some x) : Numeric d k := by
  intro v hv
  unfold entry at h
  rw [hv] at h
  cases v <;> simp at h
  exact ⟨_, rfl⟩

/-- **C90**: De Soto parameters: each from the module's entry of the same name, with the documented defaults for the band gap and
the reference conditions. -/
theorem desoto_value {alpha a_ref IL Io Rsh Rs : Fl} (h : DesotoDict a.module_parameters alpha a_ref IL Io Rsh Rs)
    (ho : ∀ k ∈ ["EgRef", "dEgdT", "irrad_ref", "temp_ref"], Numeric a.module_parameters k) (G T : Fl) :
    desotoOf a G T = .ok (calcparamsDesoto G T alpha a_ref IL Io Rsh Rs (M["EgRef"].getD (fin 1.121))
      (M["dEgdT"].getD (fin (-0.0002677))) (M["irrad_ref"].getD 1000) (M["temp_ref"].getD 25)) := by
  obtain ⟨h1, h2, h3, h4, h5, h6⟩ := h
  obtain ⟨kw, hk, hg⟩ := numKwargs_ok (keys := ["a_ref", "I_L_ref", "I_o_ref", "R_sh_ref", "R_s", "alpha_sc", "EgRef", "dEgdT",
    "irrad_ref", "temp_ref"]) (d := a.module_parameters) (by
      simp only [List.forall_mem_cons] at ho ⊢
      exact ⟨numeric_of_entry h2, numeric_of_entry h3, numeric_of_entry h4, numeric_of_entry h5, numeric_of_entry h6,
        numeric_of_entry h1, ho⟩)
  simp [desotoOf, hk, Except.bind, kwReq, hg, h1, h2, h3, h4, h5, h6, kwOr]

/-- A De Soto parameter set, for the examples. -/
def demoDesoto : PyDict PVal :=
  [("alpha_sc", .num (fin 0.003)), ("a_ref", .num (fin 1.5)), ("I_L_ref", .num (fin 8)), ("I_o_ref", .num (fin 1e-10)),
   ("R_sh_ref", .num (fin 300)), ("R_s", .num (fin 0.3)), ("Adjust", .num (fin 8)), ("EgRef", .num (fin 1.12))]
theorem demoDesoto_ok : DesotoDict (demoArr demoDesoto []).module_parameters (fin 0.003) (fin 1.5) (fin 8) (fin 1e-10) (fin 300)
    (fin 0.3) := by simp [DesotoDict, demoDesoto, demoArr, mkArray, entry, PyDict.get?]
example := desoto_value (demoArr demoDesoto []) demoDesoto_ok
  (by simp [Numeric, demoDesoto, demoArr, mkArray, PyDict.get?]) (fin 800) (fin 40)

/-- **C90**: a missing De Soto parameter is a TypeError (missing argument). -/
theorem desoto_missing (hn : ∀ k ∈ ["a_ref", "I_L_ref", "I_o_ref", "R_sh_ref", "R_s", "alpha_sc", "EgRef", "dEgdT",
    "irrad_ref", "temp_ref"], Numeric a.module_parameters k)
    (hm : ∃ k ∈ ["alpha_sc", "a_ref", "I_L_ref", "I_o_ref", "R_sh_ref", "R_s"], a.module_parameters.get? k = none) (G T : Fl) :
    desotoOf a G T = .error .typeError := by
  obtain ⟨kw, hk, hg⟩ := numKwargs_ok hn
  have hreq : ∀ keys : List String, (∃ k ∈ keys, kw.get? k = none) → kwReq kw keys = .error .typeError := by
    intro keys
    induction keys with
    | nil => rintro ⟨k, hk, -⟩; cases hk
    | cons k ks ih =>
      intro h
      cases hkk : kw.get? k with
      | none => simp [kwReq, hkk]
      | some v =>
        have : ∃ k ∈ ks, kw.get? k = none := by
          obtain ⟨k', h1, h2⟩ := h
          rcases List.mem_cons.mp h1 with rfl | h1
          · rw [h2] at hkk; cases hkk
          · exact ⟨k', h1, h2⟩
        simp [kwReq, hkk, ih this, Except.bind]
  obtain ⟨k, hk1, hk2⟩ := hm
  simp only [desotoOf, hk, Except.bind]
  rw [hreq _ ⟨k, hk1, by rw [hg]; simp [entry, hk2]⟩]

example := desoto_missing (demoArr [("alpha_sc", .num (fin 0.003))] [])
  (by simp [Numeric, demoArr, mkArray, PyDict.get?]) ⟨"a_ref", by simp, by simp [demoArr, mkArray, PyDict.get?]⟩ (fin 800) (fin 40)

/-- **C90**: CEC parameters likewise, with the adjustment of the temperature coefficient. -/
theorem cec_value {alpha a_ref IL Io Rsh Rs adj : Fl} (h : DesotoDict a.module_parameters alpha a_ref IL Io Rsh Rs)
    (hadj : M["Adjust"] = some adj)
    (ho : ∀ k ∈ ["EgRef", "dEgdT", "irrad_ref", "temp_ref"], Numeric a.module_parameters k) (G T : Fl) :
    cecOf a G T = .ok (calcparamsCec G T alpha a_ref IL Io Rsh Rs adj (M["EgRef"].getD (fin 1.121))
      (M["dEgdT"].getD (fin (-0.0002677))) (M["irrad_ref"].getD 1000) (M["temp_ref"].getD 25)) := by
  obtain ⟨h1, h2, h3, h4, h5, h6⟩ := h
  obtain ⟨kw, hk, hg⟩ := numKwargs_ok (keys := ["a_ref", "I_L_ref", "I_o_ref", "R_sh_ref", "R_s", "alpha_sc", "Adjust", "EgRef",
    "dEgdT", "irrad_ref", "temp_ref"]) (d := a.module_parameters) (by
      simp only [List.forall_mem_cons] at ho ⊢
      exact ⟨numeric_of_entry h2, numeric_of_entry h3, numeric_of_entry h4, numeric_of_entry h5, numeric_of_entry h6,
        numeric_of_entry h1, numeric_of_entry hadj, ho⟩)
  simp [cecOf, hk, Except.bind, kwReq, hg, h1, h2, h3, h4, h5, h6, hadj, kwOr]

example := cec_value (demoArr demoDesoto []) demoDesoto_ok (adj := fin 8)
  (by simp [entry, demoDesoto, demoArr, mkArray, PyDict.get?])
  (by simp [Numeric, demoDesoto, demoArr, mkArray, PyDict.get?]) (fin 800) (fin 40)

/-- **C90**: PVsyst parameters likewise. -/
theorem pvsyst_value {alpha g mu IL Io Rsh Rsh0 Rs cis : Fl} (h1 : M["alpha_sc"] = some alpha) (h2 : M["gamma_ref"] = some g)
    (h3 : M["mu_gamma"] = some mu) (h4 : M["I_L_ref"] = some IL) (h5 : M["I_o_ref"] = some Io) (h6 : M["R_sh_ref"] = some Rsh)
    (h7 : M["R_sh_0"] = some Rsh0) (h8 : M["R_s"] = some Rs) (h9 : M["cells_in_series"] = some cis)
    (ho : ∀ k ∈ ["R_sh_exp", "EgRef", "irrad_ref", "temp_ref"], Numeric a.module_parameters k) (G T : Fl) :
    pvsystOf a G T = .ok (calcparamsPvsyst G T alpha g mu IL Io Rsh Rsh0 Rs cis (M["R_sh_exp"].getD (fin 5.5))
      (M["EgRef"].getD (fin 1.121)) (M["irrad_ref"].getD 1000) (M["temp_ref"].getD 25)) := by
  obtain ⟨kw, hk, hg⟩ := numKwargs_ok (keys := ["gamma_ref", "mu_gamma", "I_L_ref", "I_o_ref", "R_sh_ref", "R_sh_0", "R_sh_exp",
    "R_s", "alpha_sc", "EgRef", "irrad_ref", "temp_ref", "cells_in_series"]) (d := a.module_parameters) (by
      simp only [List.forall_mem_cons] at ho ⊢
      obtain ⟨o1, o2, o3, o4, o5⟩ := ho
      exact ⟨numeric_of_entry h2, numeric_of_entry h3, numeric_of_entry h4, numeric_of_entry h5, numeric_of_entry h6,
        numeric_of_entry h7, o1, numeric_of_entry h8, numeric_of_entry h1, o2, o3, o4, numeric_of_entry h9, o5⟩)
  simp [pvsystOf, hk, Except.bind, kwReq, hg, h1, h2, h3, h4, h5, h6, h7, h8, h9, kwOr]

example := pvsyst_value (demoArr [("alpha_sc", .num (fin 0.003)), ("gamma_ref", .num (fin 1.1)), ("mu_gamma", .num (fin (-0.0003))),
    ("I_L_ref", .num (fin 8)), ("I_o_ref", .num (fin 1e-10)), ("R_sh_ref", .num (fin 300)), ("R_sh_0", .num (fin 1200)),
    ("R_s", .num (fin 0.3)), ("cells_in_series", .num (fin 60))] []) (alpha := fin 0.003) (g := fin 1.1) (mu := fin (-0.0003))
  (IL := fin 8) (Io := fin 1e-10) (Rsh := fin 300) (Rsh0 := fin 1200) (Rs := fin 0.3) (cis := fin 60)
  (by simp [entry, demoArr, mkArray, PyDict.get?]) (by simp [entry, demoArr, mkArray, PyDict.get?])
  (by simp [entry, demoArr, mkArray, PyDict.get?]) (by simp [entry, demoArr, mkArray, PyDict.get?])
  (by simp [entry, demoArr, mkArray, PyDict.get?]) (by simp [entry, demoArr, mkArray, PyDict.get?])
  (by simp [entry, demoArr, mkArray, PyDict.get?]) (by simp [entry, demoArr, mkArray, PyDict.get?])
  (by simp [entry, demoArr, mkArray, PyDict.get?]) (by simp [Numeric, demoArr, mkArray, PyDict.get?]) (fin 800) (fin 40)

/-- **C90**: PVWatts DC power of an array: nameplate and temperature coefficient from the module, the rest optional. -/
theorem pvwattsDc_value {pdc0 gamma : Fl} (h1 : M["pdc0"] = some pdc0) (h2 : M["gamma_pdc"] = some gamma)
    (ho : ∀ k ∈ ["temp_ref", "k", "cap_adjustment"], Numeric a.module_parameters k) (G T : Fl) :
    pvwattsDcOf a G T = .ok (pvwattsDc G T pdc0 gamma (M["temp_ref"].getD 25) M["k"]
      (decide (¬ eqv (M["cap_adjustment"].getD 0) 0))) := by
  obtain ⟨kw, hk, hg⟩ := numKwargs_ok ho
  simp [pvwattsDcOf, getNums_of (d := a.module_parameters) (xs := [pdc0, gamma]) (keys := ["pdc0", "gamma_pdc"]) (by simp [h1, h2]), hk, Except.bind, kwOr, hg]

example := pvwattsDc_value (demoArr [("pdc0", .num (fin 300)), ("gamma_pdc", .num (fin (-0.004)))] []) (pdc0 := fin 300)
  (gamma := fin (-0.004)) (by simp [entry, demoArr, mkArray, PyDict.get?]) (by simp [entry, demoArr, mkArray, PyDict.get?])
  (by simp [Numeric, demoArr, mkArray, PyDict.get?]) (fin 800) (fin 40)

/-- **C90**: and a missing nameplate or coefficient is reported by name. -/
theorem pvwattsDc_missing (G T : Fl) :
    (a.module_parameters.get? "pdc0" = none → pvwattsDcOf a G T = .error (.keyError "pdc0")) ∧
    (∀ x, M["pdc0"] = some x → a.module_parameters.get? "gamma_pdc" = none → pvwattsDcOf a G T = .error (.keyError "gamma_pdc")) := by
  constructor
  · intro h
    have := getNums_missing (d := a.module_parameters) (pre := []) (post := ["gamma_pdc"]) (by simp) h
    simp only [List.nil_append] at this
    simp only [pvwattsDcOf, this, Except.bind]
  · intro x hx h
    have := getNums_missing (d := a.module_parameters) (pre := ["pdc0"]) (post := []) (by simp [hx]) h
    simp only [List.cons_append, List.nil_append] at this
    simp only [pvwattsDcOf, this, Except.bind]

/-! ### Concrete cases -/

/-- A system of two arrays behind a PVWatts inverter. -/
example : (System.mk [mkArray (.fixed 0 180 none none), mkArray (.fixed 90 180 none none)] [("pdc0", .num 100)] []).getAc "PVWatts"
    (.tuple [fin 30, fin 20]) = .ok (Inverter.pvwatts (fin 50) 100 0.96 0.9637) := by
  have hm : pyLower "PVWatts" = "pvwatts" := by decide +kernel
  rw [ac_pvwatts (System.mk _ _ _) hm (by simp) (p := .tuple [fin 30, fin 20]) (ps := [fin 30, fin 20]) ⟨rfl, rfl⟩ (pdc0 := 100) (by simp [entry, PyDict.get?])
    (by simp [Numeric, PyDict.get?]) (by simp [Numeric, PyDict.get?]) none]
  simp [entry, PyDict.get?, Fl.sum]
  norm_num

/-- An open rack glass/polymer array: inferred coefficients, SAPM temperature. -/
example (i : ℕ) : ∃ f, (mkArray (.fixed 30 180 (some "open_rack") none) (module_type := some "glass_polymer")).getCellTemperature
    sigma ⟨fun _ => fin 1000, fun _ => fin 20, fun _ => fin 0, none, none, fun i => i⟩ "sapm" = .ok f ∧
    f i = fin (1000 * Real.exp (-3.56) + 20 + 3) := by
  have hp : (mkArray (.fixed 30 180 (some "open_rack") none) (module_type := some "glass_polymer")).temperature_model_parameters =
      sapmSet (-3.56) (-0.0750) 3 := infer_sapm.2.2.1
  refine ⟨_, temp_sapm sigma _ _ (ca := fin (-3.56)) (cb := fin (-0.0750)) (dT := fin 3) ?_ ?_ ?_ ?_, ?_⟩
  · rw [hp]; simp [entry, sapmSet, PyDict.get?]
  · rw [hp]; simp [entry, sapmSet, PyDict.get?]
  · rw [hp]; simp [entry, sapmSet, PyDict.get?]
  · rw [hp]; simp [Numeric, sapmSet, PyDict.get?]
  · rw [hp]
    simp [entry, sapmSet, PyDict.get?, Temperature.sapmCell, Temperature.sapmModule, Temperature.sapmCellFromModule]

example : (mkArray (.fixed 30 180 none none) (module_parameters := some [("Vmpo", .num (fin 30)), ("Impo", .num (fin 5)),
    ("V_mp_ref", .num (fin 99))]) (array_losses_parameters := some [("dc_ohmic_percent", .num (fin 2))])).dcOhms =
    .ok (dcOhmsFromPercent (fin 30) (fin 5) (fin 2) 1 1) := by
  refine ((dcOhms_choice _).1 ("Vmpo", "Impo") _ _ _ (Or.inr (Or.inl ⟨rfl, ?_⟩)) ?_ ?_).1 ?_ <;>
    simp [mkArray, HasMp, entry, PyDict.get?]

end Pvlib.Props.ArrayClass
