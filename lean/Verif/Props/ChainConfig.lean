import Verif.Model.ModelChain
import Verif.Props.ArrayClass

/-! # Properties C91-C93: choosing the models of a `ModelChain`, and its presets -/

noncomputable section
open scoped Classical
namespace Pvlib.Props.ChainConfig
open Fl Pvlib.Tools Pvlib.PvFunctions Pvlib.PvSystem Pvlib.ModelChain Pvlib.Props.PvSystem Pvlib.Props.ArrayClass

/-! ### Specification -/

/-- Every array of the system has every one of the keys in the dict. -/
def HasAll (sys : System) (dict : PvArr → PyDict PVal) (keys : List String) : Prop :=
  ∀ a ∈ sys.arrays, ∀ k ∈ keys, (dict a).get? k ≠ none

/-- `m` is the first entry of the table whose keys all arrays have. -/
def First {α : Type} (has : List String → Prop) (m : α) : List (α × List String) → Prop
  | [] => False
  | (a, keys) :: rest => (has keys ∧ m = a) ∨ (¬ has keys ∧ First has m rest)

/-- The module parameters a named DC model needs, as documented. -/
def dcNeeds : List (String × List String) :=
  [("sapm", ["C0", "C1", "C2", "C3", "Isco", "Impo", "Voco", "Vmpo", "Aisc", "Aimp", "Bvoco", "Mbvoc", "Bvmpo", "Mbvmp", "N",
      "Cells_in_Series"]),
   ("desoto", ["alpha_sc", "a_ref", "I_L_ref", "I_o_ref", "R_sh_ref", "R_s"]),
   ("cec", ["alpha_sc", "a_ref", "I_L_ref", "I_o_ref", "R_sh_ref", "R_s", "Adjust"]),
   ("pvsyst", ["gamma_ref", "mu_gamma", "I_L_ref", "I_o_ref", "R_sh_ref", "R_sh_0", "R_s", "alpha_sc", "EgRef", "cells_in_series"]),
   ("singlediode", ["alpha_sc", "a_ref", "I_L_ref", "I_o_ref", "R_sh_ref", "R_s"]),
   ("pvwatts", ["pdc0", "gamma_pdc"])]

/-- The parameters by which a DC model is recognised, in order of preference. -/
def dcMarks : List (DcModel × List String) :=
  [(.sapm, ["A0", "A1", "C3"]), (.cec, ["a_ref", "I_L_ref", "I_o_ref", "R_sh_ref", "R_s", "Adjust"]),
   (.desoto, ["a_ref", "I_L_ref", "I_o_ref", "R_sh_ref", "R_s"]),
   (.pvsyst, ["gamma_ref", "mu_gamma", "I_L_ref", "I_o_ref", "R_sh_ref", "R_sh_0", "R_sh_exp", "R_s"]),
   (.pvwatts, ["pdc0", "gamma_pdc"])]

/-- The parameters by which an incidence angle model is recognised, in order of preference. -/
def aoiMarks : List (AoiModel × List String) :=
  [(.physical, ["n", "K", "L"]), (.sapm, ["B0", "B1", "B2", "B3", "B4", "B5"]), (.ashrae, ["b"]), (.martin_ruiz, ["a_r"]),
   (.interp, ["theta_ref", "iam_ref"])]

/-- The parameters by which a temperature model is recognised, in order of preference. -/
def tempMarks : List (TempModel × List String) :=
  [(.sapm, ["a", "b", "deltaT"]), (.pvsyst, ["u_c", "u_v"]), (.faiman, ["u0", "u1"]), (.fuentes, ["noct_installed"]),
   (.noct_sam, ["noct", "module_efficiency"])]

/-- The names of the models. -/
def dcName : DcModel → String
  | .sapm => "sapm" | .desoto => "desoto" | .cec => "cec" | .pvsyst => "pvsyst" | .pvwatts => "pvwatts"
def aoiName : AoiModel → String
  | .ashrae => "ashrae" | .physical => "physical" | .sapm => "sapm" | .martin_ruiz => "martin_ruiz" | .schlick => "schlick"
  | .interp => "interp" | .no_loss => "no_loss"
def tempName : TempModel → String
  | .sapm => "sapm" | .pvsyst => "pvsyst" | .faiman => "faiman" | .fuentes => "fuentes" | .noct_sam => "noct_sam"

theorem common_iff (sys : System) (d : PvArr → PyDict PVal) (keys : List String) :
    common sys d keys = true ↔ HasAll sys d keys := by
  simp [common, HasAll, List.all_eq_true, hasKey, Option.isSome_iff_ne_none]

/-! ### C91: the DC model -/

private theorem dcParams_lookup (n : String) : dcParams n = dcNeeds.lookup n := by
  simp only [dcParams, dcNeeds, List.lookup]
  by_cases h1 : n = "sapm"; · subst h1; rfl
  by_cases h2 : n = "desoto"; · subst h2; rfl
  by_cases h3 : n = "cec"; · subst h3; rfl
  by_cases h4 : n = "pvsyst"; · subst h4; rfl
  by_cases h5 : n = "singlediode"; · subst h5; rfl
  by_cases h6 : n = "pvwatts"; · subst h6; rfl
  simp only [h1, h2, h3, h4, h5, h6, if_false, beq_false_of_ne h1, beq_false_of_ne h2, beq_false_of_ne h3, beq_false_of_ne h4,
    beq_false_of_ne h5, beq_false_of_ne h6]

/-- **C91**: a named DC model is accepted exactly when the name, in lower case, is one of the documented ones and every array has
every parameter that the model needs; anything else raises ValueError. -/
theorem dc_named_accepted (sys : System) (cur : Option DcModel) (n : String) :
    (assignDc sys cur (some n)).raised = none ↔
      ∃ keys, dcNeeds.lookup (pyLower n) = some keys ∧ HasAll sys PvArr.module_parameters keys := by
  simp only [assignDc, assignDcName, dcParams_lookup]
  cases h : dcNeeds.lookup (pyLower n) with
  | none => simp
  | some keys =>
    by_cases hc : common sys PvArr.module_parameters keys = true
    · have := (common_iff sys _ keys).mp hc
      simp [hc, this]
    · have : ¬ HasAll sys PvArr.module_parameters keys := fun h => hc ((common_iff sys _ keys).mpr h)
      simp [hc, this]

theorem dc_named_refused (sys : System) (cur : Option DcModel) (n : String) (e : PyErr)
    (h : (assignDc sys cur (some n)).raised = some e) : e = .valueError ∧ (assignDc sys cur (some n)).attr = cur := by
  simp only [assignDc, assignDcName] at h ⊢
  cases hk : dcParams (pyLower n) with
  | none => simp [hk] at h ⊢; exact h.symm
  | some keys => by_cases hc : common sys PvArr.module_parameters keys = true <;> simp [hk, hc] at h ⊢ <;> exact h.symm

/-- **C91**: an accepted name selects the model of that name ... -/
theorem dc_named_model (sys : System) (cur : Option DcModel) (n : String) (m : DcModel) (hn : pyLower n = dcName m)
    (h : (assignDc sys cur (some n)).raised = none) : (assignDc sys cur (some n)).attr = some m := by
  obtain ⟨keys, hk, hc⟩ := (dc_named_accepted sys cur n).mp h
  have hc := (common_iff sys _ keys).mpr hc
  rw [← dcParams_lookup] at hk
  simp only [assignDc, assignDcName, hk, hc, if_true]
  rw [hn]
  cases m <;> simp [dcMethod, dcName]

/-- ... except `'singlediode'`, which passes the check and selects nothing: a new chain has no DC model, and every run fails. -/
theorem dc_singlediode (sys : System) (cur : Option DcModel) (n : String) (hn : pyLower n = "singlediode") :
    (assignDc sys cur (some n)).attr = cur := by
  by_cases h : common sys PvArr.module_parameters ["alpha_sc", "a_ref", "I_L_ref", "I_o_ref", "R_sh_ref", "R_s"] = true <;>
    simp [assignDc, assignDcName, hn, dcParams, h, dcMethod]

/-- **C91**: without a name, the first model recognised is used, provided the arrays have everything it needs. -/
theorem dc_inferred (sys : System) (cur : Option DcModel) (m : DcModel) :
    assignDc sys cur none = ⟨some m, none⟩ ↔
      First (HasAll sys PvArr.module_parameters) m dcMarks ∧
        ∃ keys, dcNeeds.lookup (dcName m) = some keys ∧ HasAll sys PvArr.module_parameters keys := by
  have key : ∀ m : DcModel, assignDcName sys (some m) (dcName m) = ⟨some m, none⟩ ↔
      ∃ keys, dcNeeds.lookup (dcName m) = some keys ∧ HasAll sys PvArr.module_parameters keys := by
    intro m
    have hl : pyLower (dcName m) = dcName m := by cases m <;> decide +kernel
    have hm : dcMethod (dcName m) = some m := by cases m <;> simp [dcMethod, dcName]
    simp only [assignDcName, hl, dcParams_lookup]
    cases hk : dcNeeds.lookup (dcName m) with
    | none => simp
    | some keys =>
      by_cases hc : common sys PvArr.module_parameters keys = true
      · simp [hc, hm, (common_iff sys _ keys).mp hc]
      · have : ¬ HasAll sys PvArr.module_parameters keys := fun h => hc ((common_iff sys _ keys).mpr h)
        simp [hc, this]
  have other : ∀ m' : DcModel, assignDcName sys (some m') (dcName m') = ⟨some m, none⟩ → m' = m := by
    intro m' h
    have hl : pyLower (dcName m') = dcName m' := by cases m' <;> decide +kernel
    have hm : dcMethod (dcName m') = some m' := by cases m' <;> simp [dcMethod, dcName]
    simp only [assignDcName, hl] at h
    cases hk : dcParams (dcName m') with
    | none => simp [hk] at h
    | some keys =>
      by_cases hc : common sys PvArr.module_parameters keys = true
      · simpa [hk, hc, hm] using h
      · simp [hk, hc] at h
  have inf : ∀ m' : DcModel, assignDcName sys (some m') (dcName m') = ⟨some m, none⟩ ↔ m = m' ∧
      ∃ keys, dcNeeds.lookup (dcName m) = some keys ∧ HasAll sys PvArr.module_parameters keys := by
    intro m'
    constructor
    · intro h; have := other m' h; subst this; exact ⟨rfl, (key _).mp h⟩
    · rintro ⟨rfl, h⟩; exact (key _).mpr h
  simp only [← common_iff] at inf
  simp only [assignDc, inferDc, First, dcMarks, ← common_iff]
  split_ifs with h1 h2 h3 h4 h5
  · simpa [h1, dcName] using inf .sapm
  · simpa [h1, h2, dcName] using inf .cec
  · simpa [h1, h2, h3, dcName] using inf .desoto
  · simpa [h1, h2, h3, h4, dcName] using inf .pvsyst
  · simpa [h1, h2, h3, h4, h5, dcName] using inf .pvwatts
  · simp [h1, h2, h3, h4, h5]

/-- Anything else raises ValueError. -/
theorem dc_inferred_refused (sys : System) (cur : Option DcModel) (e : PyErr) (h : (assignDc sys cur none).raised = some e) :
    e = .valueError := by
  have named : ∀ m n, (assignDcName sys (some m) n).raised = some e → e = .valueError := fun m n h =>
    (dc_named_refused sys (some m) n e h).1
  simp only [assignDc, inferDc] at h
  split_ifs at h
  all_goals first | exact named _ _ h | simpa using h.symm

/-- The DC computation of an array under a model succeeds for every irradiance and temperature. -/
def Computes (m : DcModel) (a : PvArr) : Prop :=
  match m with
  | .sapm => ∀ e t, ∃ o, sapmOf a e t = .ok o
  | .desoto => ∀ e t, ∃ o, desotoOf a e t = .ok o
  | .cec => ∀ e t, ∃ o, cecOf a e t = .ok o
  | .pvsyst => ∀ e t, ∃ o, pvsystOf a e t = .ok o
  | .pvwatts => ∀ e t, ∃ o, pvwattsDcOf a e t = .ok o

private theorem entry_of {d : PyDict PVal} {k : String} (h : d.get? k ≠ none) (hn : Numeric d k) : ∃ x, entry d k = some x := by
  cases hd : d.get? k with
  | none => exact absurd hd h
  | some v =>
    obtain ⟨x, rfl⟩ := hn v hd
    exact ⟨x, by simp [entry, hd]⟩

private theorem entries_of {d : PyDict PVal} {keys : List String} (h : ∀ k ∈ keys, d.get? k ≠ none)
    (hn : ∀ k, Numeric d k) : ∃ xs : List Fl, keys.map (entry d) = xs.map some := by
  induction keys with
  | nil => exact ⟨[], rfl⟩
  | cons k ks ih =>
    obtain ⟨x, hx⟩ := entry_of (h k (by simp)) (hn k)
    obtain ⟨xs, hxs⟩ := ih (fun k' hk' => h k' (by simp [hk']))
    exact ⟨x :: xs, by simp [hx, hxs]⟩

private theorem kwReq_of {kw : PyDict Fl} {keys : List String} {xs : List Fl} (h : keys.map (fun k => kw.get? k) = xs.map some) :
    kwReq kw keys = .ok xs := by
  induction keys generalizing xs with
  | nil => cases xs with
    | nil => rfl
    | cons x xs => simp at h
  | cons k ks ih =>
    cases xs with
    | nil => simp at h
    | cons x xs =>
      simp only [List.map_cons, List.cons.injEq] at h
      simp only [kwReq, h.1, ih h.2, Except.bind]

private theorem sublist_keys {d : PyDict PVal} {kw : PyDict Fl} {all keys : List String}
    (hkw : ∀ k, kw.get? k = if k ∈ all then entry d k else none) (hsub : ∀ k ∈ keys, k ∈ all)
    (h : ∀ k ∈ keys, d.get? k ≠ none) (hn : ∀ k, Numeric d k) : ∃ xs : List Fl, keys.map (fun k => kw.get? k) = xs.map some := by
  obtain ⟨xs, hxs⟩ := entries_of h hn
  refine ⟨xs, ?_⟩
  rw [← hxs]
  apply List.map_congr_left
  intro k hk
  rw [hkw, if_pos (hsub k hk)]

private theorem computes_sapm {a : PvArr} (hn : ∀ k, Numeric a.module_parameters k)
    (h : ∀ k ∈ ["C0", "C1", "C2", "C3", "Isco", "Impo", "Voco", "Vmpo", "Aisc", "Aimp", "Bvoco", "Mbvoc", "Bvmpo", "Mbvmp", "N",
      "Cells_in_Series"], a.module_parameters.get? k ≠ none) : Computes .sapm a := by
  intro e t
  obtain ⟨xs, hxs⟩ := entries_of (d := a.module_parameters) (keys := ["Bvmpo", "Mbvmp", "Bvoco", "Mbvoc", "N", "Cells_in_Series",
    "Isco", "Aisc", "Impo", "C0", "C1", "Aimp", "Voco", "Vmpo", "C2", "C3"]) (by
      intro k hk; apply h; simp only [List.mem_cons, List.not_mem_nil, or_false] at hk ⊢; tauto) hn
  have hlen := congrArg List.length hxs
  simp only [List.length_map, List.length_cons, List.length_nil] at hlen
  rw [sapmOf, getNums_of hxs]
  match xs, hlen with
  | [_, _, _, _, _, _, _, _, _, _, _, _, _, _, _, _], _ => exact ⟨_, rfl⟩

private theorem computes_desoto {a : PvArr} (hn : ∀ k, Numeric a.module_parameters k)
    (h : ∀ k ∈ ["alpha_sc", "a_ref", "I_L_ref", "I_o_ref", "R_sh_ref", "R_s"], a.module_parameters.get? k ≠ none) :
    Computes .desoto a := by
  intro e t
  obtain ⟨kw, h1, h2⟩ := numKwargs_ok (keys := ["a_ref", "I_L_ref", "I_o_ref", "R_sh_ref", "R_s", "alpha_sc", "EgRef", "dEgdT",
    "irrad_ref", "temp_ref"]) (d := a.module_parameters) (fun k _ => hn k)
  obtain ⟨xs, hxs⟩ := sublist_keys (keys := ["alpha_sc", "a_ref", "I_L_ref", "I_o_ref", "R_sh_ref", "R_s"]) h2 (by simp) h hn
  have hlen := congrArg List.length hxs
  simp only [List.length_map, List.length_cons, List.length_nil] at hlen
  match xs, hlen with
  | [_, _, _, _, _, _], _ => exact ⟨_, by simp only [desotoOf, h1, Except.bind, kwReq_of hxs]; rfl⟩

private theorem computes_cec {a : PvArr} (hn : ∀ k, Numeric a.module_parameters k)
    (h : ∀ k ∈ ["alpha_sc", "a_ref", "I_L_ref", "I_o_ref", "R_sh_ref", "R_s", "Adjust"], a.module_parameters.get? k ≠ none) :
    Computes .cec a := by
  intro e t
  obtain ⟨kw, h1, h2⟩ := numKwargs_ok (keys := ["a_ref", "I_L_ref", "I_o_ref", "R_sh_ref", "R_s", "alpha_sc", "Adjust", "EgRef",
    "dEgdT", "irrad_ref", "temp_ref"]) (d := a.module_parameters) (fun k _ => hn k)
  obtain ⟨xs, hxs⟩ := sublist_keys (keys := ["alpha_sc", "a_ref", "I_L_ref", "I_o_ref", "R_sh_ref", "R_s", "Adjust"]) h2
    (by simp) h hn
  have hlen := congrArg List.length hxs
  simp only [List.length_map, List.length_cons, List.length_nil] at hlen
  match xs, hlen with
  | [_, _, _, _, _, _, _], _ => exact ⟨_, by simp only [cecOf, h1, Except.bind, kwReq_of hxs]; rfl⟩

private theorem computes_pvsyst {a : PvArr} (hn : ∀ k, Numeric a.module_parameters k)
    (h : ∀ k ∈ ["gamma_ref", "mu_gamma", "I_L_ref", "I_o_ref", "R_sh_ref", "R_sh_0", "R_s", "alpha_sc", "EgRef",
      "cells_in_series"], a.module_parameters.get? k ≠ none) : Computes .pvsyst a := by
  intro e t
  obtain ⟨kw, h1, h2⟩ := numKwargs_ok (keys := ["gamma_ref", "mu_gamma", "I_L_ref", "I_o_ref", "R_sh_ref", "R_sh_0", "R_sh_exp",
    "R_s", "alpha_sc", "EgRef", "irrad_ref", "temp_ref", "cells_in_series"]) (d := a.module_parameters) (fun k _ => hn k)
  obtain ⟨xs, hxs⟩ := sublist_keys (keys := ["alpha_sc", "gamma_ref", "mu_gamma", "I_L_ref", "I_o_ref", "R_sh_ref", "R_sh_0", "R_s",
    "cells_in_series"]) h2 (by simp) (by
      intro k hk; apply h; simp only [List.mem_cons, List.not_mem_nil, or_false] at hk ⊢; tauto) hn
  have hlen := congrArg List.length hxs
  simp only [List.length_map, List.length_cons, List.length_nil] at hlen
  match xs, hlen with
  | [_, _, _, _, _, _, _, _, _], _ => exact ⟨_, by simp only [pvsystOf, h1, Except.bind, kwReq_of hxs]; rfl⟩

private theorem computes_pvwatts {a : PvArr} (hn : ∀ k, Numeric a.module_parameters k)
    (h : ∀ k ∈ ["pdc0", "gamma_pdc"], a.module_parameters.get? k ≠ none) : Computes .pvwatts a := by
  intro e t
  obtain ⟨kw, h1, _⟩ := numKwargs_ok (keys := ["temp_ref", "k", "cap_adjustment"]) (d := a.module_parameters) (fun k _ => hn k)
  obtain ⟨xs, hxs⟩ := entries_of h hn
  have hlen := congrArg List.length hxs
  simp only [List.length_map, List.length_cons, List.length_nil] at hlen
  match xs, hlen with
  | [_, _], _ => exact ⟨_, by simp only [pvwattsDcOf, getNums_of hxs, h1, Except.bind]; rfl⟩

private theorem computes_of_needs {sys : System} {m : DcModel} {keys : List String} (hk : dcNeeds.lookup (dcName m) = some keys)
    (h : HasAll sys PvArr.module_parameters keys) (hn : ∀ a ∈ sys.arrays, ∀ k, Numeric a.module_parameters k) :
    ∀ a ∈ sys.arrays, Computes m a := by
  intro a ha
  cases m <;> simp [dcNeeds, dcName, List.lookup] at hk <;> subst hk
  · exact computes_sapm (hn a ha) (h a ha)
  · exact computes_desoto (hn a ha) (h a ha)
  · exact computes_cec (hn a ha) (h a ha)
  · exact computes_pvsyst (hn a ha) (h a ha)
  · exact computes_pvwatts (hn a ha) (h a ha)

/-- **C91**: once a DC model has been accepted, by name or by inference, every array has all that it reads: with numeric
parameters it computes for every irradiance and temperature, so a run cannot stop at the DC step for want of a parameter. -/
theorem dc_accepted_computes (sys : System) (mo : Option String) (m : DcModel) (h : assignDc sys none mo = ⟨some m, none⟩)
    (hn : ∀ a ∈ sys.arrays, ∀ k, Numeric a.module_parameters k) : ∀ a ∈ sys.arrays, Computes m a := by
  cases mo with
  | none =>
    obtain ⟨_, keys, hk, hc⟩ := (dc_inferred sys none m).mp h
    exact computes_of_needs hk hc hn
  | some n =>
    obtain ⟨keys, hk, hc⟩ := (dc_named_accepted sys none n).mp (by rw [h])
    have hm : pyLower n = dcName m := by
      rw [← dcParams_lookup] at hk
      have h' := congrArg Assigned.attr h
      simp only [assignDc, assignDcName, hk, (common_iff sys _ keys).mpr hc, if_true, Option.orElse] at h'
      cases hd : dcMethod (pyLower n) with
      | none => simp [hd] at h'
      | some m' =>
        simp [hd] at h'; subst h'
        simp only [dcMethod] at hd
        split_ifs at hd <;> simp_all [dcName] <;> subst hd <;> rfl
    rw [hm] at hk
    exact computes_of_needs hk hc hn

/-! ### C91: the other models -/

/-- **C91**: an incidence angle model without a name: the first one recognised (`'schlick'`, which needs no parameters, never
is); a ValueError if there is none. -/
theorem aoi_inferred (sys : System) (m : AoiModel) :
    chooseAoi sys none = .ok m ↔ First (HasAll sys PvArr.module_parameters) m aoiMarks := by
  simp only [chooseAoi, inferAoi, First, aoiMarks, ← common_iff]
  split_ifs with h1 h2 h3 h4 h5 <;> cases m <;> simp_all

theorem aoi_inferred_refused (sys : System) (e : PyErr) (h : chooseAoi sys none = .error e) : e = .valueError := by
  simp only [chooseAoi, inferAoi] at h
  split_ifs at h
  simpa using h.symm

/-- **C91**: a named incidence angle model is taken whatever the parameters are; other names are refused. -/
theorem aoi_named (sys : System) (n : String) (m : AoiModel) : chooseAoi sys (some n) = .ok m ↔ pyLower n = aoiName m := by
  by_cases h1 : pyLower n = "ashrae"; · cases m <;> simp [chooseAoi, h1, aoiName]
  by_cases h2 : pyLower n = "physical"; · cases m <;> simp [chooseAoi, h2, aoiName]
  by_cases h3 : pyLower n = "sapm"; · cases m <;> simp [chooseAoi, h3, aoiName]
  by_cases h4 : pyLower n = "martin_ruiz"; · cases m <;> simp [chooseAoi, h4, aoiName]
  by_cases h5 : pyLower n = "schlick"; · cases m <;> simp [chooseAoi, h5, aoiName]
  by_cases h6 : pyLower n = "interp"; · cases m <;> simp [chooseAoi, h6, aoiName]
  by_cases h7 : pyLower n = "no_loss"; · cases m <;> simp [chooseAoi, h7, aoiName]
  cases m <;> simp [chooseAoi, aoiName, h1, h2, h3, h4, h5, h6, h7]

theorem aoi_named_refused (sys : System) (n : String) (h : ∀ m, pyLower n ≠ aoiName m) :
    chooseAoi sys (some n) = .error .valueError := by
  have h1 := h .ashrae; have h2 := h .physical; have h3 := h .sapm; have h4 := h .martin_ruiz; have h5 := h .schlick
  have h6 := h .interp; have h7 := h .no_loss
  simp only [aoiName] at *
  simp [chooseAoi, h1, h2, h3, h4, h5, h6, h7]

/-- **C91**: spectral models: three names; none means no loss. -/
theorem spectral_cases (mo : Option String) (m : SpectralModel) : chooseSpectral mo = .ok m ↔
    match m with
    | .first_solar => ∃ n, mo = some n ∧ pyLower n = "first_solar"
    | .sapm => ∃ n, mo = some n ∧ pyLower n = "sapm"
    | .no_loss => mo = none ∨ ∃ n, mo = some n ∧ pyLower n = "no_loss" := by
  cases mo with
  | none => cases m <;> simp [chooseSpectral]
  | some n =>
    by_cases h1 : pyLower n = "first_solar"; · cases m <;> simp [chooseSpectral, h1]
    by_cases h2 : pyLower n = "sapm"; · cases m <;> simp [chooseSpectral, h2]
    by_cases h3 : pyLower n = "no_loss" <;> cases m <;> simp [chooseSpectral, h1, h2, h3]

/-- **C91**: losses and ohmic losses: two names each; `None` is refused, with NotImplementedError and TypeError, and any other
name with ValueError. -/
theorem losses_cases (mo : Option String) :
    (∀ m, chooseLosses mo = .ok m ↔ match m with
      | .pvwatts => ∃ n, mo = some n ∧ pyLower n = "pvwatts"
      | .no_loss => ∃ n, mo = some n ∧ pyLower n = "no_loss") ∧
    (∀ e, chooseLosses mo = .error e ↔ (mo = none ∧ e = .notImplementedError) ∨
      ∃ n, mo = some n ∧ pyLower n ≠ "pvwatts" ∧ pyLower n ≠ "no_loss" ∧ e = .valueError) ∧
    (∀ m, chooseOhmic mo = .ok m ↔ match m with
      | .dc_ohms_from_percent => ∃ n, mo = some n ∧ pyLower n = "dc_ohms_from_percent"
      | .no_loss => ∃ n, mo = some n ∧ pyLower n = "no_loss") ∧
    (∀ e, chooseOhmic mo = .error e ↔ (mo = none ∧ e = .typeError) ∨
      ∃ n, mo = some n ∧ pyLower n ≠ "dc_ohms_from_percent" ∧ pyLower n ≠ "no_loss" ∧ e = .valueError) := by
  cases mo with
  | none =>
    refine ⟨fun m => ?_, fun e => ?_, fun m => ?_, fun e => ?_⟩
    · cases m <;> simp [chooseLosses]
    · simp [chooseLosses, eq_comm]
    · cases m <;> simp [chooseOhmic]
    · simp [chooseOhmic, eq_comm]
  | some n =>
    refine ⟨fun m => ?_, fun e => ?_, fun m => ?_, fun e => ?_⟩
    · by_cases h1 : pyLower n = "pvwatts"; · cases m <;> simp [chooseLosses, h1]
      by_cases h2 : pyLower n = "no_loss" <;> cases m <;> simp [chooseLosses, h1, h2]
    · by_cases h1 : pyLower n = "pvwatts"; · simp [chooseLosses, h1]
      by_cases h2 : pyLower n = "no_loss" <;> simp [chooseLosses, h1, h2, eq_comm (b := e)]
    · by_cases h1 : pyLower n = "dc_ohms_from_percent"; · cases m <;> simp [chooseOhmic, h1]
      by_cases h2 : pyLower n = "no_loss" <;> cases m <;> simp [chooseOhmic, h1, h2]
    · by_cases h1 : pyLower n = "dc_ohms_from_percent"; · simp [chooseOhmic, h1]
      by_cases h2 : pyLower n = "no_loss" <;> simp [chooseOhmic, h1, h2, eq_comm (b := e)]

/-- **C91**: the temperature model without a name: the first one recognised. -/
theorem temp_inferred (sys : System) (cur : Option TempModel) (m : TempModel) :
    assignTemp sys cur none = ⟨some m, none⟩ ↔ First (HasAll sys PvArr.temperature_model_parameters) m tempMarks := by
  simp only [assignTemp, inferTemp, First, tempMarks, ← common_iff]
  split_ifs with h1 h2 h3 h4 h5 <;> cases m <;> simp_all

private theorem inferTemp_iff (sys : System) (m : TempModel) :
    inferTemp sys = .ok m ↔ First (HasAll sys PvArr.temperature_model_parameters) m tempMarks := by
  rw [← temp_inferred sys none m]
  cases h : inferTemp sys <;> simp [assignTemp, h]

private theorem tempMethod_iff (n : String) (m : TempModel) : tempMethod n = some m ↔ n = tempName m := by
  by_cases h1 : n = "sapm"; · cases m <;> simp [tempMethod, h1, tempName]
  by_cases h2 : n = "pvsyst"; · cases m <;> simp [tempMethod, h2, tempName]
  by_cases h3 : n = "faiman"; · cases m <;> simp [tempMethod, h3, tempName]
  by_cases h4 : n = "fuentes"; · cases m <;> simp [tempMethod, h4, tempName]
  by_cases h5 : n = "noct_sam" <;> cases m <;> simp [tempMethod, tempName, h1, h2, h3, h4, h5]

/-- **C91**: a named temperature model is accepted exactly when it is the one that would be recognised from the parameters of all
arrays. -/
theorem temp_named (sys : System) (cur : Option TempModel) (n : String) (m : TempModel) :
    assignTemp sys cur (some n) = ⟨some m, none⟩ ↔
      pyLower n = tempName m ∧ First (HasAll sys PvArr.temperature_model_parameters) m tempMarks := by
  rw [← tempMethod_iff, ← inferTemp_iff]
  cases h : tempMethod (pyLower n) with
  | none => simp [assignTemp, h]
  | some m' =>
    cases hi : inferTemp sys with
    | error e => simp [assignTemp, h, hi]
    | ok m'' =>
      by_cases hm : m' = m''
      · subst hm; simp [assignTemp, h, hi]
      · simp only [assignTemp, h, hi, hm, if_false, Assigned.mk.injEq, Option.some.injEq, reduceCtorEq, and_false, Except.ok.injEq,
          false_iff, not_and]
        rintro rfl rfl; exact hm rfl

/-- What an inconsistent assignment leaves behind: the exception is raised, yet the chain keeps the refused model. -/
theorem temp_refused_kept (sys : System) (cur : Option TempModel) (n : String) (m : TempModel) (hn : pyLower n = tempName m)
    (h : ¬ First (HasAll sys PvArr.temperature_model_parameters) m tempMarks) :
    assignTemp sys cur (some n) = ⟨some m, some .valueError⟩ := by
  rw [← inferTemp_iff] at h
  have ht := (tempMethod_iff _ _).mpr hn
  cases hi : inferTemp sys with
  | error e =>
    have : e = .valueError := by
      simp only [inferTemp] at hi
      split_ifs at hi
      simpa using hi.symm
    subst this
    simp [assignTemp, ht, hi]
  | ok m'' =>
    have hm : m ≠ m'' := by rintro rfl; exact h hi
    simp [assignTemp, ht, hi, hm]

/-- An unknown name changes nothing. -/
theorem temp_unknown (sys : System) (cur : Option TempModel) (n : String) (h : ∀ m, pyLower n ≠ tempName m) :
    assignTemp sys cur (some n) = ⟨cur, some .valueError⟩ := by
  cases ht : tempMethod (pyLower n) with
  | none => simp [assignTemp, ht]
  | some m => exact absurd ((tempMethod_iff _ _).mp ht) (h m)

/-- **C91**: the AC model without a name: Sandia by its coefficients, then ADR (one array only), then PVWatts. -/
theorem ac_inferred (sys : System) (m : AcModel) : chooseAc sys none = .ok m ↔
    let has := fun k => sys.inverter_parameters.get? k ≠ none
    let sandia := has "C0" ∧ has "C1" ∧ has "C2"
    match m with
    | .sandia => sandia
    | .adr => ¬ sandia ∧ has "ADRCoefficients" ∧ sys.arrays.length ≤ 1
    | .pvwatts => ¬ sandia ∧ ¬ has "ADRCoefficients" ∧ has "pdc0" := by
  simp only [chooseAc, inferAc, hasKey, Bool.and_eq_true, Option.isSome_iff_ne_none]
  split_ifs with h1 h2 h3 h4
  · cases m <;> simp_all
  · cases m <;> simp_all <;> omega
  · cases m <;> simp_all
  · cases m <;> simp_all
  · cases m <;> simp_all

private theorem sub_adr (l : List Char) : ("adr".toList.tails.any fun t => l.isPrefixOf t) = true ↔
    l ∈ ["".toList, "a".toList, "d".toList, "r".toList, "ad".toList, "dr".toList, "adr".toList] := by
  match l with
  | [] => simp
  | [a] => simp [List.tails]
  | [a, b] => simp [List.tails]
  | [a, b, c] => simp [List.tails]
  | a :: b :: c :: d :: t => simp [List.tails]

/-- **C91**: a named AC model.  As the code tests `model in 'adr'`, every substring of `'adr'`, even the empty string, selects
the ADR inverter. -/
theorem ac_named (sys : System) (n : String) (m : AcModel) : chooseAc sys (some n) = .ok m ↔
    match m with
    | .sandia => pyLower n = "sandia"
    | .adr => pyLower n ∈ ["", "a", "d", "r", "ad", "dr", "adr"]
    | .pvwatts => pyLower n = "pvwatts" := by
  have hs : hasSub (pyLower n) "adr" = true ↔ pyLower n ∈ ["", "a", "d", "r", "ad", "dr", "adr"] := by
    rw [hasSub, sub_adr]
    simp only [List.mem_cons, List.not_mem_nil, or_false, String.toList_inj]
  by_cases h1 : pyLower n = "sandia"
  · cases m <;> simp [chooseAc, h1]
  · by_cases h2 : pyLower n ∈ ["", "a", "d", "r", "ad", "dr", "adr"]
    · have h3 : pyLower n ≠ "pvwatts" := by rintro h; rw [h] at h2; simp at h2
      cases m <;> simp only [chooseAc, h1, hs.mpr h2, if_true, if_false, h2, h3] <;> simp
    · have h4 : ¬ hasSub (pyLower n) "adr" = true := fun h => h2 (hs.mp h)
      by_cases h3 : pyLower n = "pvwatts"
      · cases m <;> simp only [chooseAc, h1, h4, h3, if_true, if_false, h2] <;> simp_all
      · cases m <;> simp only [chooseAc, h1, h4, h3, if_false, h2] <;> simp

/-- **C91**: names are case-insensitive throughout. -/
theorem names_case (sys : System) (dc : Option DcModel) (t : Option TempModel) {n n' : String} (h : pyLower n = pyLower n') :
    assignDc sys dc (some n) = assignDc sys dc (some n') ∧ chooseAc sys (some n) = chooseAc sys (some n') ∧
    chooseAoi sys (some n) = chooseAoi sys (some n') ∧ chooseSpectral (some n) = chooseSpectral (some n') ∧
    assignTemp sys t (some n) = assignTemp sys t (some n') ∧ chooseOhmic (some n) = chooseOhmic (some n') ∧
    chooseLosses (some n) = chooseLosses (some n') := by
  simp only [assignDc, assignDcName, chooseAc, chooseAoi, chooseSpectral, assignTemp, chooseOhmic, chooseLosses, h, and_self]

/-! ### C91: what an inferred model needs is there -/

/-- An exception for want of a parameter. -/
def Missing (e : PyErr) : Prop := e = .typeError ∨ ∃ k, e = .keyError k

/-- **C91**: an inferred incidence angle model (other than `interp`, whose parameters are lists) never lacks a parameter. -/
theorem aoi_inferred_computes (mk : String → List Fl → List Fl → Except PyErr (Fl → Fl)) (sys : System) (m : AoiModel)
    (h : chooseAoi sys none = .ok m) (hi : m ≠ .interp) (hn : ∀ a ∈ sys.arrays, ∀ k, Numeric a.module_parameters k) :
    ∀ a ∈ sys.arrays, ∀ (x : Fl) e, a.getIam mk x (aoiName m) = .error e → ¬ Missing e := by
  intro a ha x e he
  have hf := (aoi_inferred sys m).mp h
  have l1 : pyLower "physical" = "physical" := by decide +kernel
  have l2 : pyLower "sapm" = "sapm" := by decide +kernel
  have l3 : pyLower "ashrae" = "ashrae" := by decide +kernel
  have l4 : pyLower "martin_ruiz" = "martin_ruiz" := by decide +kernel
  simp only [First, aoiMarks] at hf
  rcases hf with ⟨_, rfl⟩ | ⟨_, hf⟩
  · obtain ⟨kw, h1, _⟩ := numKwargs_ok (keys := ["n", "K", "L", "n_ar"]) (d := a.module_parameters) (fun k _ => hn a ha k)
    simp [PvArr.getIam, aoiName, l1, h1, Except.bind] at he
  rcases hf with ⟨hk, rfl⟩ | ⟨_, hf⟩
  · obtain ⟨xs, hxs⟩ := entries_of (d := a.module_parameters) (keys := ["B5", "B4", "B3", "B2", "B1", "B0"]) (by
      intro k hk'; apply hk a ha; simp only [List.mem_cons, List.not_mem_nil, or_false] at hk' ⊢; tauto) (hn a ha)
    have hlen := congrArg List.length hxs
    simp only [List.length_map, List.length_cons, List.length_nil] at hlen
    match xs, hlen with
    | [_, _, _, _, _, _], _ => simp [PvArr.getIam, aoiName, l2, getNums_of hxs, Except.bind] at he
  rcases hf with ⟨_, rfl⟩ | ⟨_, hf⟩
  · obtain ⟨kw, h1, _⟩ := numKwargs_ok (keys := ["b"]) (d := a.module_parameters) (fun k _ => hn a ha k)
    simp [PvArr.getIam, aoiName, l3, h1, Except.bind] at he
  rcases hf with ⟨_, rfl⟩ | ⟨_, hf⟩
  · obtain ⟨kw, h1, _⟩ := numKwargs_ok (keys := ["a_r"]) (d := a.module_parameters) (fun k _ => hn a ha k)
    simp only [PvArr.getIam, aoiName, l4, h1, Except.bind] at he
    simp only [String.reduceEq, if_false, if_true, Iam.martinRuiz] at he
    split_ifs at he
    simp only [Except.error.injEq] at he
    subst he
    simp [Missing]
  rcases hf with ⟨_, rfl⟩ | ⟨_, hf⟩
  · exact absurd rfl hi
  · exact hf.elim

private theorem noctSam_not_missing {a b c d e g h i : Fl} {f : Option Fl} {er : PyErr}
    (hh : Temperature.noctSam a b c d e f g h i = .error er) : ¬ Missing er := by
  simp only [Temperature.noctSam] at hh
  split_ifs at hh
  simp only [Except.error.injEq] at hh
  subst hh
  simp [Missing]

/-- **C91**: an accepted temperature model never lacks a parameter. -/
theorem temp_accepted_computes (sigma : Fl) (sys : System) (mo : Option String) (m : TempModel)
    (h : assignTemp sys none mo = ⟨some m, none⟩) (hn : ∀ a ∈ sys.arrays, ∀ k, Numeric a.module_parameters k ∧
      Numeric a.temperature_model_parameters k) :
    ∀ a ∈ sys.arrays, ∀ (w : Weather) e, a.getCellTemperature sigma w (tempName m) = .error e → ¬ Missing e := by
  have hf : First (HasAll sys PvArr.temperature_model_parameters) m tempMarks := by
    cases mo with
    | none => exact (temp_inferred sys none m).mp h
    | some n => exact ((temp_named sys none n m).mp h).2
  intro a ha w e he
  have kwm := fun keys => numKwargs_ok (keys := keys) (d := a.module_parameters) (fun k _ => (hn a ha k).1)
  have kwt := fun keys => numKwargs_ok (keys := keys) (d := a.temperature_model_parameters) (fun k _ => (hn a ha k).2)
  simp only [First, tempMarks] at hf
  rcases hf with ⟨hk, rfl⟩ | ⟨_, hf⟩
  · obtain ⟨xs, hxs⟩ := entries_of (d := a.temperature_model_parameters) (hk a ha) (fun k => (hn a ha k).2)
    obtain ⟨kw, h1, _⟩ := kwt ["irrad_ref"]
    have hlen := congrArg List.length hxs
    simp only [List.length_map, List.length_cons, List.length_nil] at hlen
    match xs, hlen with
    | [_, _, _], _ => simp [PvArr.getCellTemperature, tempName, getNums_of hxs, h1, Except.bind] at he
  rcases hf with ⟨_, rfl⟩ | ⟨_, hf⟩
  · obtain ⟨k1, h1, _⟩ := kwm ["module_efficiency", "alpha_absorption"]
    obtain ⟨k2, h2, _⟩ := kwt ["u_c", "u_v"]
    simp [PvArr.getCellTemperature, tempName, h1, h2, Except.bind] at he
  rcases hf with ⟨_, rfl⟩ | ⟨_, hf⟩
  · obtain ⟨k1, h1, _⟩ := kwt ["u0", "u1"]
    simp [PvArr.getCellTemperature, tempName, h1, Except.bind] at he
  rcases hf with ⟨hk, rfl⟩ | ⟨_, hf⟩
  · obtain ⟨x, hx⟩ := entry_of (hk a ha "noct_installed" (by simp)) (hn a ha "noct_installed").2
    obtain ⟨k1, h1, _⟩ := kwt ["wind_height", "emissivity", "absorption", "surface_tilt", "module_width", "module_length"]
    simp [PvArr.getCellTemperature, tempName, h1, getNum_of hx, Except.bind] at he
  rcases hf with ⟨hk, rfl⟩ | ⟨_, hf⟩
  · obtain ⟨xs, hxs⟩ := entries_of (d := a.temperature_model_parameters) (hk a ha) (fun k => (hn a ha k).2)
    obtain ⟨kw, h1, _⟩ := kwt ["transmittance_absorptance", "array_height", "mount_standoff"]
    have hlen := congrArg List.length hxs
    simp only [List.length_map, List.length_cons, List.length_nil] at hlen
    match xs, hlen with
    | [x, y], _ =>
      simp only [PvArr.getCellTemperature, tempName, getNums_of hxs, h1, Except.bind] at he
      simp only [String.reduceEq, if_false, if_true] at he
      split at he
      · rename_i hh
        simp only [Except.error.injEq] at he; subst he
        exact noctSam_not_missing hh
      · cases he
  · exact hf.elim

/-! ### C92: construction and presets -/

/-- The chain has exactly the models that the configuration asks for. -/
structure Follows (sys : System) (cfg : Config) (c : Chain) : Prop where
  system : c.system = sys
  clearsky : c.clearsky_model = cfg.clearsky_model
  transposition : c.transposition_model = cfg.transposition_model
  solar_position : c.solar_position_method = cfg.solar_position_method
  airmass : c.airmass_model = cfg.airmass_model
  dc : assignDc sys none cfg.dc_model = ⟨c.dc, none⟩
  ac : chooseAc sys cfg.ac_model = .ok c.ac
  aoi : chooseAoi sys cfg.aoi_model = .ok c.aoi
  spectral : chooseSpectral cfg.spectral_model = .ok c.spectral
  temp : assignTemp sys none cfg.temperature_model = ⟨some c.temp, none⟩
  ohmic : chooseOhmic cfg.dc_ohmic_model = .ok c.ohmic
  losses : chooseLosses cfg.losses_model = .ok c.losses

private theorem result_ok {α : Type} {a : Assigned α} {x : Option α} (h : a.result = .ok x) : a = ⟨x, none⟩ := by
  obtain ⟨attr, raised⟩ := a
  cases raised <;> simp [Assigned.result] at h
  subst h; rfl

private theorem bind_ok {ε α β : Type} {x : Except ε α} {f : α → Except ε β} {b : β} (h : x.bind f = .ok b) :
    ∃ a, x = .ok a ∧ f a = .ok b := by
  cases x with
  | error e => simp [Except.bind] at h
  | ok a => exact ⟨a, rfl, h⟩

/-- **C92**: construction succeeds exactly when every choice is accepted, and the chain then has those models. -/
theorem chain_iff (sys : System) (cfg : Config) (c : Chain) : mkChain sys cfg = .ok c ↔ Follows sys cfg c := by
  constructor
  · intro h
    obtain ⟨dc, h1, h⟩ := bind_ok h
    obtain ⟨ac, h2, h⟩ := bind_ok h
    obtain ⟨aoi, h3, h⟩ := bind_ok h
    obtain ⟨sp, h4, h⟩ := bind_ok h
    obtain ⟨t, h5, h⟩ := bind_ok h
    obtain ⟨oh, h6, h⟩ := bind_ok h
    obtain ⟨lo, h7, h⟩ := bind_ok h
    cases t with
    | none => simp at h
    | some t =>
      simp only [Except.ok.injEq] at h
      subst h
      exact ⟨rfl, rfl, rfl, rfl, rfl, result_ok h1, h2, h3, h4, result_ok h5, h6, h7⟩
  · rintro ⟨h0, h1, h2, h3, h4, h5, h6, h7, h8, h9, h10, h11⟩
    obtain ⟨cs, cc, ct, cp, ca, cd, cac, cao, csp, cte, coh, clo⟩ := c
    simp only at *
    subst h0 h1 h2 h3 h4
    simp [mkChain, h5, h6, h7, h8, h9, h10, h11, Assigned.result, Except.bind]

/-- **C92**: a keyword given to `with_pvwatts` or `with_sapm` replaces the preset, a keyword not given leaves it. -/
theorem presets (sys : System) (kw : Kwargs) (c : Chain) :
    (withPvwatts sys kw = .ok c ↔ Follows sys
      { clearsky_model := kw.clearsky_model.getD "ineichen", transposition_model := kw.transposition_model.getD "perez",
        solar_position_method := kw.solar_position_method.getD "nrel_numpy",
        airmass_model := kw.airmass_model.getD "kastenyoung1989",
        dc_model := kw.dc_model.getD (some "pvwatts"), ac_model := kw.ac_model.getD (some "pvwatts"),
        aoi_model := kw.aoi_model.getD (some "physical"), spectral_model := kw.spectral_model.getD (some "no_loss"),
        temperature_model := kw.temperature_model.getD (some "sapm"),
        dc_ohmic_model := kw.dc_ohmic_model.getD (some "no_loss"), losses_model := kw.losses_model.getD (some "pvwatts") } c) ∧
    (withSapm sys kw = .ok c ↔ Follows sys
      { clearsky_model := kw.clearsky_model.getD "ineichen", transposition_model := kw.transposition_model.getD "haydavies",
        solar_position_method := kw.solar_position_method.getD "nrel_numpy",
        airmass_model := kw.airmass_model.getD "kastenyoung1989",
        dc_model := kw.dc_model.getD (some "sapm"), ac_model := kw.ac_model.getD (some "sandia"),
        aoi_model := kw.aoi_model.getD (some "sapm"), spectral_model := kw.spectral_model.getD (some "sapm"),
        temperature_model := kw.temperature_model.getD (some "sapm"),
        dc_ohmic_model := kw.dc_ohmic_model.getD (some "no_loss"), losses_model := kw.losses_model.getD (some "no_loss") } c) :=
  ⟨chain_iff sys _ c, chain_iff sys _ c⟩

private theorem dc_named_some (sys : System) (m : DcModel) (x : Option DcModel) (keys : List String)
    (hk : dcNeeds.lookup (dcName m) = some keys) :
    assignDc sys none (some (dcName m)) = ⟨x, none⟩ ↔ x = some m ∧ HasAll sys PvArr.module_parameters keys := by
  have hl : pyLower (dcName m) = dcName m := by cases m <;> decide +kernel
  constructor
  · intro h
    have hr : (assignDc sys none (some (dcName m))).raised = none := by rw [h]
    obtain ⟨keys', hk', hc⟩ := (dc_named_accepted sys none _).mp hr
    rw [hl, hk] at hk'
    have ha := dc_named_model sys none _ m hl hr
    rw [h] at ha
    simp only [Option.some.injEq] at hk'
    subst hk'
    exact ⟨ha, hc⟩
  · rintro ⟨rfl, hc⟩
    have hr := (dc_named_accepted sys none (dcName m)).mpr ⟨keys, by rw [hl, hk], hc⟩
    have ha := dc_named_model sys none _ m hl hr
    cases h : assignDc sys none (some (dcName m)) with
    | mk a r => rw [h] at hr ha; simp only at hr ha; rw [hr, ha]

private theorem temp_sapm_some (sys : System) (x : Option TempModel) :
    assignTemp sys none (some "sapm") = ⟨x, none⟩ ↔ x = some .sapm ∧ HasAll sys PvArr.temperature_model_parameters ["a", "b", "deltaT"] := by
  have hl : pyLower "sapm" = "sapm" := by decide +kernel
  have key := temp_named sys none "sapm" .sapm
  have hF : First (HasAll sys PvArr.temperature_model_parameters) TempModel.sapm tempMarks ↔
      HasAll sys PvArr.temperature_model_parameters ["a", "b", "deltaT"] := by simp [First, tempMarks]
  rw [hF] at key
  simp only [hl, tempName, true_and] at key
  constructor
  · intro h
    cases x with
    | none =>
      by_cases hh : HasAll sys PvArr.temperature_model_parameters ["a", "b", "deltaT"]
      · rw [key.mpr hh] at h; simp at h
      · have := temp_refused_kept sys none "sapm" .sapm hl (by rwa [hF])
        rw [this] at h; simp at h
    | some m =>
      have hm := (temp_named sys none "sapm" m).mp h
      rw [hl] at hm
      have : m = .sapm := by cases m <;> simp [tempName] at hm ⊢
      subst this
      exact ⟨rfl, key.mp h⟩
  · rintro ⟨rfl, h⟩; exact key.mpr h

/-- **C92**: plain `with_pvwatts` succeeds exactly when every array has `pdc0`, `gamma_pdc` and the SAPM thermal parameters; the
chain is then the documented PVWatts sequence. -/
theorem pvwatts_preset (sys : System) (c : Chain) : withPvwatts sys {} = .ok c ↔
    HasAll sys PvArr.module_parameters ["pdc0", "gamma_pdc"] ∧
    HasAll sys PvArr.temperature_model_parameters ["a", "b", "deltaT"] ∧
    c = ⟨sys, "ineichen", "perez", "nrel_numpy", "kastenyoung1989", some .pvwatts, .pvwatts, .physical, .no_loss, .sapm, .no_loss,
      .pvwatts⟩ := by
  have l1 : pyLower "pvwatts" = "pvwatts" := by decide +kernel
  have l2 : pyLower "no_loss" = "no_loss" := by decide +kernel
  have l3 : pyLower "physical" = "physical" := by decide +kernel
  rw [(presets sys {} c).1]
  have hd := fun x => dc_named_some sys .pvwatts x ["pdc0", "gamma_pdc"] rfl
  have ht := fun x => temp_sapm_some sys x
  have ha := (ac_named sys "pvwatts" .pvwatts).mpr l1
  have hi := (aoi_named sys "physical" .physical).mpr l3
  have hs : chooseSpectral (some "no_loss") = .ok .no_loss := (spectral_cases _ .no_loss).mpr (.inr ⟨_, rfl, l2⟩)
  have ho : chooseOhmic (some "no_loss") = .ok .no_loss := by simp [chooseOhmic, l2]
  have hl : chooseLosses (some "pvwatts") = .ok .pvwatts := by simp [chooseLosses, l1]
  constructor
  · rintro ⟨h0, h1, h2, h3, h4, h5, h6, h7, h8, h9, h10, h11⟩
    simp only [Option.getD_none] at *
    obtain ⟨e1, p1⟩ := (hd _).mp h5
    obtain ⟨e2, p2⟩ := (ht _).mp h9
    rw [ha] at h6; rw [hi] at h7; rw [hs] at h8; rw [ho] at h10; rw [hl] at h11
    refine ⟨p1, p2, ?_⟩
    obtain ⟨cs, cc, ct, cp, ca, cd, cac, cao, csp, cte, coh, clo⟩ := c
    simp_all
  · rintro ⟨p1, p2, rfl⟩
    exact ⟨rfl, rfl, rfl, rfl, rfl, (hd _).mpr ⟨rfl, p1⟩, ha, hi, hs, (ht _).mpr ⟨rfl, p2⟩, ho, hl⟩

/-- **C92**: plain `with_sapm` succeeds exactly when every array has the SAPM module and thermal parameters. -/
theorem sapm_preset (sys : System) (c : Chain) : withSapm sys {} = .ok c ↔
    HasAll sys PvArr.module_parameters ["C0", "C1", "C2", "C3", "Isco", "Impo", "Voco", "Vmpo", "Aisc", "Aimp", "Bvoco", "Mbvoc",
      "Bvmpo", "Mbvmp", "N", "Cells_in_Series"] ∧
    HasAll sys PvArr.temperature_model_parameters ["a", "b", "deltaT"] ∧
    c = ⟨sys, "ineichen", "haydavies", "nrel_numpy", "kastenyoung1989", some .sapm, .sandia, .sapm, .sapm, .sapm, .no_loss,
      .no_loss⟩ := by
  have l1 : pyLower "sapm" = "sapm" := by decide +kernel
  have l2 : pyLower "no_loss" = "no_loss" := by decide +kernel
  have l3 : pyLower "sandia" = "sandia" := by decide +kernel
  rw [(presets sys {} c).2]
  have hd := fun x => dc_named_some sys .sapm x _ rfl
  have ht := fun x => temp_sapm_some sys x
  have ha := (ac_named sys "sandia" .sandia).mpr l3
  have hi := (aoi_named sys "sapm" .sapm).mpr l1
  have hs : chooseSpectral (some "sapm") = .ok .sapm := (spectral_cases _ .sapm).mpr ⟨_, rfl, l1⟩
  have ho : chooseOhmic (some "no_loss") = .ok .no_loss := by simp [chooseOhmic, l2]
  have hl : chooseLosses (some "no_loss") = .ok .no_loss := by simp [chooseLosses, l2]
  constructor
  · rintro ⟨h0, h1, h2, h3, h4, h5, h6, h7, h8, h9, h10, h11⟩
    simp only [Option.getD_none] at *
    obtain ⟨e1, p1⟩ := (hd _).mp h5
    obtain ⟨e2, p2⟩ := (ht _).mp h9
    rw [ha] at h6; rw [hi] at h7; rw [hs] at h8; rw [ho] at h10; rw [hl] at h11
    refine ⟨p1, p2, ?_⟩
    obtain ⟨cs, cc, ct, cp, ca, cd, cac, cao, csp, cte, coh, clo⟩ := c
    simp_all
  · rintro ⟨p1, p2, rfl⟩
    exact ⟨rfl, rfl, rfl, rfl, rfl, (hd _).mpr ⟨rfl, p1⟩, ha, hi, hs, (ht _).mpr ⟨rfl, p2⟩, ho, hl⟩

/-- **C92**: orientation strategies. -/
theorem orientation_cases (strategy : String) (kw : PyDict Fl) (t a : Fl) : getOrientation strategy kw = .ok (t, a) ↔
    a = 180 ∧ ((strategy = "south_at_latitude_tilt" ∧ kw.get? "latitude" = some t) ∨ (strategy = "flat" ∧ t = 0)) := by
  by_cases h1 : strategy = "south_at_latitude_tilt"
  · subst h1
    cases h : kw.get? "latitude" with
    | none => simp [getOrientation, argOf, h, Except.bind]
    | some x => simp [getOrientation, argOf, h, Except.bind, eq_comm, and_comm]
  · by_cases h2 : strategy = "flat"
    · subst h2; simp [getOrientation, eq_comm, and_comm]
    · simp [getOrientation, h1, h2]

/-! ### Examples -/

/-- A PVWatts module on an open rack. -/
def exArray : PvArr :=
  mkArray (.fixed 30 180 (some "open_rack") none) (module_type := some "glass_polymer")
    (module_parameters := some [("pdc0", .num 100), ("gamma_pdc", .num (fin (-0.003)))])

def exSystem : System := ⟨[exArray], [("pdc0", .num 80)], []⟩

theorem exTemp : exArray.temperature_model_parameters =
    [("a", .num (fin (-3.56))), ("b", .num (fin (-0.0750))), ("deltaT", .num 3)] := by
  have : fmtOpt (some "open_rack") ++ "_" ++ fmtOpt (some "glass_polymer") = "open_rack_glass_polymer" := by decide +kernel
  simp [exArray, mkArray, inferTemperatureParams, Mount.racking, this, sapmTemps, List.lookup]

theorem exModule : exArray.module_parameters = [("pdc0", .num 100), ("gamma_pdc", .num (fin (-0.003)))] := rfl

/-- The preset accepts it. -/
theorem exChain : ∃ c, withPvwatts exSystem {} = .ok c :=
  ⟨_, (pvwatts_preset exSystem _).mpr ⟨by simp [HasAll, exSystem, exModule, PyDict.get?],
    by simp [HasAll, exSystem, exTemp, PyDict.get?], rfl⟩⟩

theorem exDc : assignDc exSystem none (some "PVWatts") = ⟨some .pvwatts, none⟩ := by
  have l : pyLower "PVWatts" = "pvwatts" := by decide +kernel
  have hr := (dc_named_accepted exSystem none "PVWatts").mpr ⟨_, by rw [l]; rfl, by simp [HasAll, exSystem, exModule, PyDict.get?]⟩
  have := dc_named_model exSystem none "PVWatts" .pvwatts l hr
  cases hh : assignDc exSystem none (some "PVWatts") with
  | mk at_ ra => simp_all

/-- Another name is refused, and nothing is assigned. -/
theorem exDcRefused : ∃ e, (assignDc exSystem none (some "pvsyst")).raised = some e := by
  have l : pyLower "pvsyst" = "pvsyst" := by decide +kernel
  cases h : (assignDc exSystem none (some "pvsyst")).raised with
  | some e => exact ⟨e, rfl⟩
  | none =>
    obtain ⟨ks, h1, h2⟩ := (dc_named_accepted exSystem none "pvsyst").mp h
    rw [l] at h1
    exfalso
    have hk : ks = ["gamma_ref", "mu_gamma", "I_L_ref", "I_o_ref", "R_sh_ref", "R_sh_0", "R_s", "alpha_sc", "EgRef", "cells_in_series"] := by
      have e : dcNeeds.lookup "pvsyst" = some ["gamma_ref", "mu_gamma", "I_L_ref", "I_o_ref", "R_sh_ref", "R_sh_0", "R_s", "alpha_sc",
        "EgRef", "cells_in_series"] := by decide +kernel
      rw [e] at h1
      exact (Option.some.inj h1).symm
    have := h2 exArray (by simp [exSystem]) "gamma_ref" (by rw [hk]; simp)
    simp [exModule, PyDict.get?] at this

example := dc_named_refused exSystem none "pvsyst" _ exDcRefused.choose_spec
example := dc_singlediode exSystem none "SingleDiode" (by decide +kernel)

/-- Inference on the same system: PVWatts DC and AC, SAPM temperature; no incidence angle model can be inferred. -/
example : assignDc exSystem none none = ⟨some .pvwatts, none⟩ ∧ chooseAc exSystem none = .ok .pvwatts ∧
    assignTemp exSystem none none = ⟨some .sapm, none⟩ ∧ chooseAoi exSystem none = .error .valueError := by
  refine ⟨?_, ?_, ?_, ?_⟩
  · rw [dc_inferred]
    exact ⟨by simp [First, dcMarks, HasAll, exSystem, exModule, PyDict.get?],
      ["pdc0", "gamma_pdc"], rfl, by simp [HasAll, exSystem, exModule, PyDict.get?]⟩
  · rw [ac_inferred]; simp [exSystem, PyDict.get?]
  · rw [temp_inferred]; simp [First, tempMarks, HasAll, exSystem, exTemp, PyDict.get?]
  · cases h : chooseAoi exSystem none with
    | error e => rw [aoi_inferred_refused _ _ h]
    | ok m =>
      rw [aoi_inferred] at h
      simp [First, aoiMarks, HasAll, exSystem, exModule, PyDict.get?] at h

/-- Its parameters are numbers. -/
theorem exNumeric : ∀ a ∈ exSystem.arrays, ∀ k, Numeric a.module_parameters k ∧ Numeric a.temperature_model_parameters k := by
  intro a ha k
  simp only [exSystem, List.mem_singleton] at ha
  subst ha
  constructor
  · intro v hv; rw [exModule] at hv; simp only [PyDict.get?] at hv; split_ifs at hv <;> simp at hv <;> exact ⟨_, hv.symm⟩
  · intro v hv; rw [exTemp] at hv; simp only [PyDict.get?] at hv; split_ifs at hv <;> simp at hv <;> exact ⟨_, hv.symm⟩

example := dc_accepted_computes exSystem (some "PVWatts") .pvwatts exDc fun a ha k => (exNumeric a ha k).1
example := aoi_named_refused exSystem "fresnel" (by intro m; cases m <;> decide +kernel)
example := temp_unknown exSystem none "king" (by intro m; cases m <;> decide +kernel)
example := names_case exSystem none none (n := "SAPM") (n' := "sapm") (by decide +kernel)

/-- The same array with other module parameters. -/
def exOther (d : PyDict PVal) : System := ⟨[{ exArray with module_parameters := d }], [], []⟩

example (sigma : Fl) := temp_accepted_computes sigma exSystem none .sapm (by
  rw [temp_inferred]; simp [First, tempMarks, HasAll, exSystem, exTemp, PyDict.get?]) exNumeric

example (mk : String → List Fl → List Fl → Except PyErr (Fl → Fl)) := aoi_inferred_computes mk (exOther [("b", .num (fin 0.05))]) .ashrae (by
  rw [aoi_inferred]; simp [First, aoiMarks, HasAll, exOther, PyDict.get?]) (by decide) (by
  intro a ha k
  simp only [exOther, List.mem_singleton] at ha
  subst ha
  intro v hv
  simp only [PyDict.get?] at hv
  split_ifs at hv <;> simp at hv
  exact ⟨_, hv.symm⟩)

/-- Without parameters no DC model can be inferred. -/
theorem exNoParams : ∃ e, (assignDc (exOther []) none none).raised = some e := by
  cases h : assignDc (exOther []) none none with
  | mk at_ ra =>
    cases ra with
    | some e => exact ⟨e, rfl⟩
    | none =>
      cases at_ with
      | none => simp [assignDc, inferDc, exOther, common, hasKey, PyDict.get?] at h
      | some m =>
        exfalso
        rw [dc_inferred] at h
        simp [First, dcMarks, HasAll, exOther, PyDict.get?] at h

example := dc_inferred_refused (exOther []) none _ exNoParams.choose_spec

/-- A name inconsistent with the parameters is refused, and kept. -/
example (cur : Option TempModel) : assignTemp exSystem cur (some "PVsyst") = ⟨some .pvsyst, some .valueError⟩ :=
  temp_refused_kept exSystem cur "PVsyst" .pvsyst (by decide +kernel)
    (by simp [First, tempMarks, HasAll, exSystem, exTemp, PyDict.get?])

/-- The empty string is an "ADR" model. -/
example : chooseAc exSystem (some "") = .ok .adr := (ac_named exSystem "" .adr).mpr (by decide +kernel)

end Pvlib.Props.ChainConfig
end
