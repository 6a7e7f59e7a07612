import Verif.Props.Iam

/-! # Property C64: converting and fitting incidence angle modifiers -/

noncomputable section
open scoped Classical
open Real
namespace Pvlib.Props.IamFit
open Fl Pvlib.Iam Pvlib.Tools Pvlib.Spec

/-! ### Vocabulary -/

/-- `x` lies in `[lo, hi]`. -/
def Within (lo hi : ℝ) (x : Fl) : Prop := ∃ r, x = fin r ∧ lo ≤ r ∧ r ≤ hi

/-- An optimiser that keeps to its bounds (as scipy's bounded Powell does): if it succeeds, it returns one value per
variable, each within the bounds of that variable. -/
def Honest (opt : Optimizer) : Prop :=
  ∀ f s x, opt f s = some x → x.length = s.bounds.length ∧
    ∀ i (h : i < s.bounds.length) (h' : i < x.length), (s.bounds[i]'h).1 ≤ x[i] ∧ x[i] ≤ (s.bounds[i]'h).2

/-- The hypotheses of the theorems below can be met: an optimiser that keeps to its bounds whenever they can be kept,
and one that minimises the misfit of `ashrae` data. -/
def lowest : Optimizer := fun _ s => if ∀ p ∈ s.bounds, p.1 ≤ p.1 ∧ p.1 ≤ p.2 then some (s.bounds.map Prod.fst) else none

theorem lowest_honest : Honest lowest := by
  intro f s x h
  unfold lowest at h
  split_ifs at h with hb
  obtain rfl := Option.some.inj h
  refine ⟨by simp, fun i hi _ => ?_⟩
  have := hb _ (List.getElem_mem hi)
  simpa using this

/-- The parameter names each model needs. -/
def needs (model : String) : List String :=
  if model = "ashrae" then ["b"] else if model = "physical" then ["n", "K", "L"] else ["a_r"]

private theorem within_of {lo hi : ℝ} {x : Fl} (h1 : fin lo ≤ x) (h2 : x ≤ fin hi) : Within lo hi x := by
  rcases cases_fin x with rfl | rfl | ⟨r, rfl⟩ | rfl
  · simp at h1
  · simp at h1
  · exact ⟨r, rfl, h1, h2⟩
  · simp at h2

/-! ### Refused calls -/

/-- **C64**: unknown source or target models are refused with NotImplementedError, before anything else. -/
theorem convert_unknown (huge : ℝ) (opt : Optimizer) (source target : String) (params : List (String × Fl))
    (weight : Fl → Fl) (fix_n : Bool)
    (h : source ∉ ["ashrae", "martin_ruiz", "physical"] ∨ target ∉ ["ashrae", "martin_ruiz", "physical"]) :
    convert huge opt source params target weight fix_n = .error .notImplementedError := by
  have hk : ∀ m, (m ∉ fitModels) = (m ∉ ["ashrae", "martin_ruiz", "physical"]) := fun _ => rfl
  by_cases h1 : source ∉ ["ashrae", "martin_ruiz", "physical"]
  · simp only [convert, hk, h1, not_false_eq_true, if_true]
  · have h2 := h.resolve_left h1
    simp only [convert, hk, h1, if_false, h2, not_false_eq_true, if_true]

example (huge : ℝ) := convert_unknown huge lowest "sapm" "ashrae" [("b", 0.05)] sinWeight true (.inl (by decide +kernel))

/-- **C64**: parameters whose names are not exactly those of the source model are refused with ValueError. -/
theorem convert_params (huge : ℝ) (opt : Optimizer) (source target : String) (params : List (String × Fl))
    (weight : Fl → Fl) (fix_n : Bool) (hs : source ∈ ["ashrae", "martin_ruiz", "physical"])
    (ht : target ∈ ["ashrae", "martin_ruiz", "physical"])
    (h : ¬ ∀ k, k ∈ params.map Prod.fst ↔ k ∈ needs source) :
    convert huge opt source params target weight fix_n = .error .valueError := by
  have hk : ∀ m, (m ∉ fitModels) = (m ∉ ["ashrae", "martin_ruiz", "physical"]) := fun _ => rfl
  have hm : modelParams source = needs source := by
    simp only [List.mem_cons, List.not_mem_nil, or_false] at hs
    rcases hs with rfl | rfl | rfl <;> rfl
  have hc : checkParams source (params.map Prod.fst) = .error .valueError := by
    simp only [checkParams, hm, h, if_false]
  simp only [convert, hk, hs, ht, not_true_eq_false, if_false, hc]

example (huge : ℝ) := convert_params huge lowest "physical" "ashrae" [("n", 1.5), ("K", 4)] sinWeight true (by decide +kernel)
  (by decide +kernel) (fun h => absurd ((h "L").mpr (by decide +kernel)) (by decide +kernel))

private theorem mapM_ok {α β : Type} (f : α → Except PyErr β) (g : α → β) (l : List α) (h : ∀ a ∈ l, f a = .ok (g a)) :
    l.mapM f = .ok (l.map g) := by
  induction l with
  | nil => rfl
  | cons a l ih =>
    rw [List.mapM_cons, h a (by simp), ih (fun b hb => h b (List.mem_cons_of_mem _ hb))]
    rfl

private theorem mapM_error {α β : Type} (f : α → Except PyErr β) (e : PyErr) (a : α) (l : List α) (h : f a = .error e) :
    (a :: l).mapM f = .error e := by
  rw [List.mapM_cons, h]; rfl

private theorem mapM_error' {α β : Type} (f : α → Except PyErr β) (e : PyErr) (l : List α) (hl : l ≠ [])
    (h : ∀ a, f a = .error e) : l.mapM f = .error e := by
  cases l with
  | nil => exact absurd rfl hl
  | cons a l => exact mapM_error f e a l (h a)

private theorem convertAoi_ne : convertAoi ≠ [] := by
  intro h
  have := congrArg List.length h
  simp [convertAoi] at this

/-- **C64**: a Martin-Ruiz source with a non-positive `a_r` is refused with ValueError. -/
theorem convert_martinRuiz_nonpos (huge : ℝ) (opt : Optimizer) (target : String) (a : ℝ) (ha : a ≤ 0)
    (weight : Fl → Fl) (fix_n : Bool) (ht : target ∈ ["ashrae", "martin_ruiz", "physical"]) :
    convert huge opt "martin_ruiz" [("a_r", fin a)] target weight fix_n = .error .valueError := by
  have hk : ∀ m, (m ∉ fitModels) = (m ∉ ["ashrae", "martin_ruiz", "physical"]) := fun _ => rfl
  have hc : checkParams "martin_ruiz" ([("a_r", fin a)].map Prod.fst) = .ok () := by
    simp [checkParams, modelParams]
  have hm : ∀ x, modelAt "martin_ruiz" (sourceArgs "martin_ruiz" [("a_r", fin a)]) x = .error .valueError := by
    intro x
    simpa [modelAt, sourceArgs, modelParams, getParam] using (Props.Iam.martinRuiz_isIam a).1 ha x
  have hmm := mapM_error' _ _ convertAoi convertAoi_ne hm
  simp only [convert, hk, ht, not_true_eq_false, if_false, hc, hmm]
  simp

example (huge : ℝ) := convert_martinRuiz_nonpos huge lowest "ashrae" (-0.1) (by norm_num) sinWeight true (by decide +kernel)

/-- **C64** (a defect of the code, kept visible): converting `physical` to `physical` passes every check and then
fails on an unassigned local variable. -/
theorem convert_physical_physical (huge : ℝ) (opt : Optimizer) (n K L : Fl) (weight : Fl → Fl) (fix_n : Bool) :
    convert huge opt "physical" [("n", n), ("K", K), ("L", L)] "physical" weight fix_n = .error .unboundLocal := by
  have hc : checkParams "physical" ([("n", n), ("K", K), ("L", L)].map Prod.fst) = .ok () := by
    simp [checkParams, modelParams]
  have hm : ∀ x ∈ convertAoi, modelAt "physical" (sourceArgs "physical" [("n", n), ("K", K), ("L", L)]) x =
      .ok (physical x n K L) := by
    intro x _
    simp [modelAt, sourceArgs, modelParams, getParam]
  have hmm := mapM_ok _ _ _ hm
  have h1 : ("physical" : String) ∈ fitModels := by simp [fitModels]
  simp only [convert, h1, not_true_eq_false, if_false, hc, hmm]
  simp [convertSetup]

/-! ### Accepted calls -/

/-- The source calls that pass every check: model name, parameters with usable values, and the curve they define. -/
inductive GoodSource : String → List (String × Fl) → (Fl → Fl) → Prop
  | ashrae (b : Fl) : GoodSource "ashrae" [("b", b)] (fun aoi => Iam.ashrae aoi b)
  | martinRuiz (a : ℝ) (h : 0 < a) (f : Fl → Fl) (hf : ∀ aoi, martinRuiz aoi (fin a) = .ok (f aoi)) :
      GoodSource "martin_ruiz" [("a_r", fin a)] f
  | physical (n K L : Fl) : GoodSource "physical" [("n", n), ("K", K), ("L", L)] (fun aoi => Iam.physical aoi n K L)

/-- The integer degrees from 0 to 90. -/
def degrees90 : List ℝ := (List.range 91).map fun (i : ℕ) => (i : ℝ)

private theorem convert_run {source : String} {params : List (String × Fl)} {g : Fl → Fl}
    (hs : GoodSource source params g)
    (huge : ℝ) (opt : Optimizer) (target : String) (weight : Fl → Fl) (fix_n : Bool)
    (ht : target ∈ ["ashrae", "martin_ruiz", "physical"]) :
    convert huge opt source params target weight fix_n =
      match convertSetup source params target fix_n with
      | .error e => .error e
      | .ok s =>
        match opt (convertResidual huge source target (degrees90.map fun d => (fin d, g (fin d))) weight) s with
        | none => .error .runtimeError
        | some x => processReturn target x := by
  have hk : ∀ m, (m ∉ fitModels) = (m ∉ ["ashrae", "martin_ruiz", "physical"]) := fun _ => rfl
  have hs' : source ∈ ["ashrae", "martin_ruiz", "physical"] := by cases hs <;> simp
  have hc : checkParams source (params.map Prod.fst) = .ok () := by
    cases hs <;> simp [checkParams, modelParams]
  have hg : ∀ x, modelAt source (sourceArgs source params) x = .ok (g x) := by
    cases hs with
    | ashrae b => exact fun x => by simp [modelAt, sourceArgs, modelParams, getParam]
    | martinRuiz a h f hf => exact fun x => by simp [modelAt, sourceArgs, modelParams, getParam, hf]
    | physical n K L => exact fun x => by simp [modelAt, sourceArgs, modelParams, getParam]
  have hmm := mapM_ok _ g convertAoi (fun x _ => hg x)
  have hz : convertAoi.zip (convertAoi.map g) = degrees90.map fun d => (fin d, g (fin d)) := by
    simp only [convertAoi, degrees90, List.map_map, List.zip_map', Function.comp_def]
  simp only [convert, hk, hs', ht, not_true_eq_false, if_false, hc, hmm, minimize, hz]
  cases convertSetup source params target fix_n with
  | error e => rfl
  | ok s =>
    simp only
    cases opt (convertResidual huge source target (degrees90.map fun d => (fin d, g (fin d))) weight) s <;> rfl

/-- **C64**: an accepted conversion to `ashrae` or `martin_ruiz` either reports that the optimiser failed
(RuntimeError) or returns exactly the one parameter of the target model, between 1e-4 and 1. -/
theorem convert_single {source : String} {params : List (String × Fl)} {g : Fl → Fl}
    (hs : GoodSource source params g) (huge : ℝ) (opt : Optimizer) (ho : Honest opt) (target : String)
    (weight : Fl → Fl) (fix_n : Bool) (ht : target = "ashrae" ∨ target = "martin_ruiz") :
    convert huge opt source params target weight fix_n = .error .runtimeError ∨
    ∃ v, convert huge opt source params target weight fix_n =
      .ok [(if target = "ashrae" then "b" else "a_r", v)] ∧ Within 1e-4 1 v := by
  have ht' : target ∈ ["ashrae", "martin_ruiz", "physical"] := by rcases ht with rfl | rfl <;> simp
  rw [convert_run hs huge opt target weight fix_n ht']
  have hse : convertSetup source params target fix_n = .ok ⟨[(fin 1e-04, 1)], [fin 1e-03]⟩ := by
    rcases ht with rfl | rfl <;> simp [convertSetup]
  rw [hse]
  simp only
  cases hr : opt (convertResidual huge source target (degrees90.map fun d => (fin d, g (fin d))) weight)
      ⟨[(fin 1e-04, 1)], [fin 1e-03]⟩ with
  | none => exact Or.inl rfl
  | some x =>
    right
    obtain ⟨hl, hb⟩ := ho _ _ _ hr
    match x, hl with
    | [v], _ =>
      have h0 := hb 0 (by simp) (by simp)
      refine ⟨v, ?_, within_of h0.1 h0.2⟩
      rcases ht with rfl | rfl <;> simp [processReturn]

example (huge : ℝ) := convert_single (.ashrae 0.05) huge lowest lowest_honest "martin_ruiz" sinWeight true (.inr rfl)

/-- **C64**: an accepted conversion from `martin_ruiz` to `physical` reports failure or returns `n` in `[1.05, 2]`,
`K = 4` and `L` in `[1e-6, 0.08]`, whichever of the two search orders was used. -/
theorem convert_martinRuiz_physical (huge : ℝ) (opt : Optimizer) (ho : Honest opt) (a : ℝ) (ha : 0 < a)
    (weight : Fl → Fl) (fix_n : Bool) :
    convert huge opt "martin_ruiz" [("a_r", fin a)] "physical" weight fix_n = .error .runtimeError ∨
    ∃ n L, convert huge opt "martin_ruiz" [("a_r", fin a)] "physical" weight fix_n =
      .ok [("n", n), ("K", 4), ("L", L)] ∧ Within 1.05 2 n ∧ Within 1e-6 0.08 L := by
  obtain ⟨f, hf, _⟩ := (Props.Iam.martinRuiz_isIam a).2 ha
  rw [convert_run (.martinRuiz a ha f hf) huge opt "physical" weight fix_n (by simp)]
  have hse : convertSetup "martin_ruiz" [("a_r", fin a)] "physical" fix_n = .ok (martinRuizToPhysical (fin a)) := by
    simp [convertSetup, getParam]
  rw [hse]
  simp only
  cases hr : opt (convertResidual huge "martin_ruiz" "physical" (degrees90.map fun d => (fin d, f (fin d))) weight)
      (martinRuizToPhysical (fin a)) with
  | none => exact Or.inl rfl
  | some x =>
    right
    obtain ⟨hl, hb⟩ := ho _ _ _ hr
    by_cases h22 : (0.22 : ℝ) < a
    · simp only [martinRuizToPhysical, fin_lt, h22, if_true, List.reverse_cons, List.reverse_nil, List.nil_append,
        List.cons_append, List.length_cons, List.length_nil] at hl hb
      match x, hl with
      | [u, v], _ =>
        have h0 := hb 0 (by simp) (by simp)
        have h1 := hb 1 (by simp) (by simp)
        simp only [List.getElem_cons_zero, List.getElem_cons_succ] at h0 h1
        obtain ⟨u, rfl, hu⟩ := within_of h0.1 h0.2
        obtain ⟨v, rfl, hv⟩ := within_of h1.1 h1.2
        refine ⟨fin u, fin v, ?_, ⟨u, rfl, hu⟩, ⟨v, rfl, hv⟩⟩
        have : v < u := by linarith [hu.1, hv.2]
        simp [processReturn, this]
    · simp only [martinRuizToPhysical, fin_lt, h22, if_false, List.length_cons, List.length_nil] at hl hb
      match x, hl with
      | [u, v], _ =>
        have h0 := hb 0 (by simp) (by simp)
        have h1 := hb 1 (by simp) (by simp)
        simp only [List.getElem_cons_zero, List.getElem_cons_succ] at h0 h1
        obtain ⟨u, rfl, hu⟩ := within_of h0.1 h0.2
        obtain ⟨v, rfl, hv⟩ := within_of h1.1 h1.2
        refine ⟨fin v, fin u, ?_, ⟨v, rfl, hv⟩, ⟨u, rfl, hu⟩⟩
        have : ¬ v < u := by linarith [hv.1, hu.2]
        simp [processReturn, this]

example (huge : ℝ) := convert_martinRuiz_physical huge lowest lowest_honest 0.16 (by norm_num) sinWeight true

/-- The refractive index `convert` fixes for an `ashrae` source, as a number: `√(1 + 2 b) / (1 + b)`. -/
theorem fixedN (b : ℝ) (hb : 0 ≤ b) :
    ∃ x, ashraeIntercept (fin b) = fin x ∧ 0 < x ∧ x ≤ 90 ∧ cosDeg x = b / (1 + b) ∧
      sind (ashraeIntercept (fin b)) = fin (Real.sqrt (1 + 2 * b) / (1 + b)) := by
  have hb1 : (0 : ℝ) < 1 + b := by linarith
  have hq0 : 0 ≤ b / (1 + b) := by positivity
  have hq1 : b / (1 + b) < 1 := by rw [div_lt_one hb1]; linarith
  have hp := Real.pi_pos
  have he : ashraeIntercept (fin b) = fin (Real.arccos (b / (1 + b)) * (180 / π)) := by
    have h1 : ¬ (b / (1 + b) < -1 ∨ 1 < b / (1 + b)) := by push Not; constructor <;> linarith
    simp only [ashraeIntercept, acosd, one_eq, fin_add, fin_div hb1.ne', Fl.arccos, h1, if_false, degrees, fin_mul]
  have hback : Real.arccos (b / (1 + b)) * (180 / π) * (π / 180) = Real.arccos (b / (1 + b)) := by
    field_simp
  refine ⟨_, he, ?_, ?_, ?_, ?_⟩
  · have : 0 < Real.arccos (b / (1 + b)) := Real.arccos_pos.mpr hq1
    positivity
  · have : Real.arccos (b / (1 + b)) ≤ π / 2 := Real.arccos_le_pi_div_two.mpr hq0
    calc _ ≤ π / 2 * (180 / π) := mul_le_mul_of_nonneg_right this (by positivity)
      _ = 90 := by field_simp; norm_num
  · simp only [cosDeg, hback]
    exact Real.cos_arccos (by linarith) hq1.le
  · rw [he]
    simp only [sind, radians, fin_mul, hback, Fl.sin, Real.sin_arccos]
    congr 1
    rw [show 1 - (b / (1 + b)) ^ 2 = (1 + 2 * b) / (1 + b) ^ 2 by field_simp; ring,
      Real.sqrt_div (by linarith), Real.sqrt_sq hb1.le]

example := fixedN 0.05 (by norm_num)

/-- **C64**: the angle used to fix `n` is where the `ashrae` curve reaches zero (for every `b > 0`). -/
theorem intercept_zero (b : ℝ) (hb : 0 < b) :
    ∃ x, ashraeIntercept (fin b) = fin x ∧ 0 < x ∧ x < 90 ∧ Iam.ashrae (fin x) (fin b) = fin 0 ∧
      ∀ y, 0 ≤ y → y < x → ∃ r, Iam.ashrae (fin y) (fin b) = fin r ∧ 0 < r := by
  obtain ⟨x, hx, h0, h90, hc, _⟩ := fixedN b hb.le
  have hp := Real.pi_pos
  have hb1 : (0 : ℝ) < 1 + b := by linarith
  have hcp : 0 < cosDeg x := by rw [hc]; positivity
  have hx90 : x < 90 := by
    rcases lt_or_eq_of_le h90 with h | h
    · exact h
    · subst h
      rw [cosDeg, show (90 : ℝ) * (π / 180) = π / 2 by ring, Real.cos_pi_div_two] at hcp
      exact absurd hcp (lt_irrefl _)
  have hval : ∀ y, 0 ≤ y → y < 90 → Iam.ashrae (fin y) (fin b) = fin (max 0 (1 - b * (1 / cosDeg y - 1))) := by
    intro y hy0 hy
    have hy' : ¬ (90 ≤ |y|) := by rw [abs_of_nonneg hy0]; linarith
    have hcy : Real.cos (y * (π / 180)) ≠ 0 := by
      apply ne_of_gt
      apply Real.cos_pos_of_mem_Ioo
      constructor <;> nlinarith
    simp [Iam.ashrae, npwhere, hy', hcy, cosDeg]
  refine ⟨x, hx, h0, hx90, ?_, ?_⟩
  · rw [hval x h0.le hx90, hc]
    congr 1
    have : 1 - b * (1 / (b / (1 + b)) - 1) = 0 := by field_simp; ring
    rw [this, max_self]
  · intro y hy0 hy
    refine ⟨_, hval y hy0 (by linarith), ?_⟩
    apply lt_max_of_lt_right
    have hlt : cosDeg x < cosDeg y := by
      apply Real.cos_lt_cos_of_nonneg_of_le_pi
      · positivity
      · nlinarith
      · exact mul_lt_mul_of_pos_right hy (by positivity)
    have h1 : 1 / cosDeg y < 1 / cosDeg x := one_div_lt_one_div_of_lt hcp hlt
    have h2 : b * (1 / cosDeg x - 1) = 1 := by rw [hc]; field_simp; ring
    nlinarith

example := intercept_zero 0.05 (by norm_num)

/-- **C64**: an accepted conversion from `ashrae` to `physical` reports failure or returns `n`, `K = 4` and `L` in
`[1e-6, 0.08]`: with `fix_n` (`0 ≤ b ≤ 1`) `n` is the sine of the angle at which the `ashrae` curve reaches zero,
otherwise it is in `[0.8, 2]`. -/
theorem convert_ashrae_physical (huge : ℝ) (opt : Optimizer) (ho : Honest opt) (b : ℝ) (hb0 : 0 ≤ b) (hb1 : b ≤ 1)
    (weight : Fl → Fl) (fix_n : Bool) :
    convert huge opt "ashrae" [("b", fin b)] "physical" weight fix_n = .error .runtimeError ∨
    ∃ n L, convert huge opt "ashrae" [("b", fin b)] "physical" weight fix_n =
      .ok [("n", n), ("K", 4), ("L", L)] ∧ Within 1e-6 0.08 L ∧
      (if fix_n then n = fin (Real.sqrt (1 + 2 * b) / (1 + b)) else Within 0.8 2 n) := by
  rw [convert_run (.ashrae (fin b)) huge opt "physical" weight fix_n (by simp)]
  have hse : convertSetup "ashrae" [("b", fin b)] "physical" fix_n = .ok (ashraeToPhysical fix_n (fin b)) := by
    simp [convertSetup, getParam]
  rw [hse]
  simp only
  cases hr : opt (convertResidual huge "ashrae" "physical"
      (degrees90.map fun d => (fin d, Iam.ashrae (fin d) (fin b))) weight) (ashraeToPhysical fix_n (fin b)) with
  | none => exact Or.inl rfl
  | some x =>
    right
    obtain ⟨hl, hb⟩ := ho _ _ _ hr
    cases fix_n with
    | true =>
      obtain ⟨_, _, _, _, _, hn⟩ := fixedN b hb0
      simp only [ashraeToPhysical, if_true, List.length_cons, List.length_nil, hn] at hl hb
      match x, hl with
      | [u, v], _ =>
        have h0 := hb 0 (by simp) (by simp)
        have h1 := hb 1 (by simp) (by simp)
        simp only [List.getElem_cons_zero, List.getElem_cons_succ] at h0 h1
        obtain ⟨u, rfl, hu⟩ := within_of h0.1 h0.2
        obtain ⟨v, rfl, hv⟩ := within_of h1.1 h1.2
        have hve : v = Real.sqrt (1 + 2 * b) / (1 + b) := le_antisymm hv.2 hv.1
        refine ⟨fin v, fin u, ?_, ⟨u, rfl, hu⟩, by simp [hve]⟩
        have hvb : 1 / 2 ≤ v := by
          rw [hve, le_div_iff₀ (by linarith)]
          have : (1 : ℝ) ≤ Real.sqrt (1 + 2 * b) := by
            rw [show (1 : ℝ) = Real.sqrt 1 by simp]
            apply Real.sqrt_le_sqrt; simp; linarith
          linarith
        have : ¬ v < u := by linarith [hu.2]
        simp [processReturn, this]
    | false =>
      simp only [ashraeToPhysical, List.length_cons, List.length_nil, Bool.false_eq_true, if_false] at hl hb
      match x, hl with
      | [u, v], _ =>
        have h0 := hb 0 (by simp) (by simp)
        have h1 := hb 1 (by simp) (by simp)
        simp only [List.getElem_cons_zero, List.getElem_cons_succ] at h0 h1
        obtain ⟨u, rfl, hu⟩ := within_of h0.1 h0.2
        obtain ⟨v, rfl, hv⟩ := within_of h1.1 h1.2
        refine ⟨fin v, fin u, ?_, ⟨u, rfl, hu⟩, by simpa using ⟨v, rfl, hv⟩⟩
        have : ¬ v < u := by linarith [hv.1, hu.2]
        simp [processReturn, this]

example (huge : ℝ) := convert_ashrae_physical huge lowest lowest_honest 0.05 (by norm_num) (by norm_num) sinWeight true

/-- **C64**: `fit` refuses unknown models, reports failure, or returns the named parameters of the model within its
bounds. -/
theorem fit_contract (huge : ℝ) (opt : Optimizer) (ho : Honest opt) (samples : List (Fl × Fl)) (model : String)
    (weight : Fl → Fl) :
    (model ∉ ["ashrae", "martin_ruiz", "physical"] → fit huge opt samples model weight = .error .notImplementedError) ∧
    (model ∈ ["ashrae", "martin_ruiz", "physical"] → fit huge opt samples model weight = .error .runtimeError ∨
      (model = "physical" ∧ ∃ n L, fit huge opt samples model weight = .ok [("n", n), ("K", 4), ("L", L)] ∧
        Within 1 2 n ∧ Within 0 0.08 L) ∨
      (model ≠ "physical" ∧ ∃ v, fit huge opt samples model weight =
        .ok [(if model = "ashrae" then "b" else "a_r", v)] ∧ Within 1e-8 1 v)) := by
  have hk : ∀ m, (m ∉ fitModels) = (m ∉ ["ashrae", "martin_ruiz", "physical"]) := fun _ => rfl
  constructor
  · intro h
    simp only [fit, hk, h, not_false_eq_true, if_true]
  · intro h
    simp only [fit, hk, h, not_true_eq_false, if_false, minimize]
    cases hr : opt (fitResidual huge samples model weight) (fitSetup model) with
    | none => exact Or.inl rfl
    | some x =>
      right
      obtain ⟨hl, hb⟩ := ho _ _ _ hr
      by_cases hp : model = "physical"
      · left
        subst hp
        simp only [fitSetup, if_true, List.length_cons, List.length_nil] at hl hb
        match x, hl with
        | [u, v], _ =>
          have h0 := hb 0 (by simp) (by simp)
          have h1 := hb 1 (by simp) (by simp)
          simp only [List.getElem_cons_zero, List.getElem_cons_succ] at h0 h1
          obtain ⟨u, rfl, hu⟩ := within_of h0.1 h0.2
          obtain ⟨v, rfl, hv⟩ := within_of h1.1 h1.2
          refine ⟨rfl, fin v, fin u, ?_, ⟨v, rfl, hv⟩, ⟨u, rfl, hu⟩⟩
          have : ¬ v < u := by linarith [hv.1, hu.2]
          simp [processReturn, this]
      · right
        refine ⟨hp, ?_⟩
        simp only [fitSetup, hp, if_false, List.length_cons, List.length_nil] at hl hb
        match x, hl with
        | [v], _ =>
          have h0 := hb 0 (by simp) (by simp)
          refine ⟨v, ?_, within_of h0.1 h0.2⟩
          simp only [List.mem_cons, List.not_mem_nil, or_false] at h
          rcases h with rfl | rfl | rfl
          · simp [processReturn]
          · simp [processReturn]
          · exact absurd rfl hp

example (huge : ℝ) := fit_contract huge lowest lowest_honest [(0, 1), (60, 0.9)] "martin_ruiz" sinWeight

/-! ### The quantity being minimised -/

private def ntn (huge : ℝ) : Fl → ℝ
  | nan => 0
  | pinf => huge
  | ninf => -huge
  | fin x => x

private theorem nanToNum_eq (huge : ℝ) (x : Fl) : nanToNum huge x = fin (ntn huge x) := by cases x <;> rfl

private theorem residual_eq (huge : ℝ) (samples : List (ℝ × ℝ)) (target : Fl → Fl) (weight : Fl → Fl) (w : ℝ → ℝ)
    (hw : ∀ a, weight (fin a) = fin (w a)) :
    residual huge (samples.map fun p => (fin p.1, fin p.2)) target weight =
      fin ((samples.map fun p => |p.2 - ntn huge (target (fin p.1))| * (w p.1 * if 0 ≤ p.1 ∧ p.1 ≤ 90 then 1 else 0)).sum) := by
  have hterm : ∀ p : ℝ × ℝ, Fl.abs (fin p.2 - nanToNum huge (target (fin p.1))) *
      (weight (fin p.1) * npwhere ((0 : Fl) ≤ fin p.1 ∧ fin p.1 ≤ 90) 1 0) =
      fin (|p.2 - ntn huge (target (fin p.1))| * (w p.1 * if 0 ≤ p.1 ∧ p.1 ≤ 90 then 1 else 0)) := by
    intro p
    rw [nanToNum_eq, hw]
    simp only [zero_eq, ofNat_eq, one_eq, fin_le, npwhere]
    by_cases h : 0 ≤ p.1 ∧ p.1 ≤ 90
    · simp only [h, and_self, if_true, fin_sub, abs_fin, fin_mul]
    · simp only [h, if_false, fin_sub, abs_fin, fin_mul]
  rw [Iam.residual, List.map_map, ← sum_fin, List.map_map]
  congr 1
  apply List.map_congr_left
  intro p _
  exact hterm p

/-- **C64**: the minimised quantity counts only the samples between 0 and 90 degrees: for finite data, dropping
the others changes nothing. -/
theorem residual_only_front (huge : ℝ) (samples : List (ℝ × ℝ)) (target : Fl → Fl) (weight : Fl → Fl) (w : ℝ → ℝ)
    (hw : ∀ a, weight (fin a) = fin (w a)) :
    residual huge (samples.map fun p => (fin p.1, fin p.2)) target weight =
    residual huge ((samples.filter fun p => 0 ≤ p.1 ∧ p.1 ≤ 90).map fun p => (fin p.1, fin p.2)) target weight := by
  rw [residual_eq huge _ target weight w hw, residual_eq huge _ target weight w hw]
  congr 1
  induction samples with
  | nil => rfl
  | cons p l ih =>
    by_cases h : 0 ≤ p.1 ∧ p.1 ≤ 90
    · rw [List.filter_cons_of_pos (by simpa using h), List.map_cons, List.map_cons, List.sum_cons, List.sum_cons, ih]
    · rw [List.filter_cons_of_neg (by simpa using h), List.map_cons, List.sum_cons, ih]
      simp only [h, if_false, mul_zero, zero_add]

example (huge : ℝ) := residual_only_front huge [(0, 1), (60, 0.9), (120, 0.3)] (fun a => Iam.ashrae a 0.05) (fun _ => fin 1)
  (fun _ => 1) (fun _ => rfl)

/-- **C64**: with a non-negative weight the minimised quantity is a non-negative number; it is zero exactly when the
target curve meets every sample between 0 and 90 degrees that has a positive weight. -/
theorem residual_zero_iff (huge : ℝ) (samples : List (ℝ × ℝ)) (target : Fl → Fl) (t : ℝ → ℝ)
    (ht : ∀ p ∈ samples, target (fin p.1) = fin (t p.1))
    (weight : Fl → Fl) (w : ℝ → ℝ) (hw : ∀ a, weight (fin a) = fin (w a)) (hw0 : ∀ a, 0 ≤ w a) :
    ∃ r, residual huge (samples.map fun p => (fin p.1, fin p.2)) target weight = fin r ∧ 0 ≤ r ∧
      (r = 0 ↔ ∀ p ∈ samples, 0 ≤ p.1 → p.1 ≤ 90 → 0 < w p.1 → t p.1 = p.2) := by
  refine ⟨_, residual_eq huge _ target weight w hw, ?_, ?_⟩
  · apply List.sum_nonneg
    intro x hx
    obtain ⟨p, _, rfl⟩ := List.mem_map.mp hx
    have := hw0 p.1
    split_ifs <;> positivity
  · induction samples with
    | nil => simp
    | cons p l ih =>
      have ih := ih (fun q hq => ht q (List.mem_cons_of_mem _ hq))
      have hp := ht p (by simp)
      rw [List.map_cons, List.sum_cons]
      have h1 : 0 ≤ |p.2 - ntn huge (target (fin p.1))| * (w p.1 * if 0 ≤ p.1 ∧ p.1 ≤ 90 then 1 else 0) := by
        have := hw0 p.1
        split_ifs <;> positivity
      have h2 : 0 ≤ (l.map fun p => |p.2 - ntn huge (target (fin p.1))| *
          (w p.1 * if 0 ≤ p.1 ∧ p.1 ≤ 90 then 1 else 0)).sum := by
        apply List.sum_nonneg
        intro x hx
        obtain ⟨p, _, rfl⟩ := List.mem_map.mp hx
        have := hw0 p.1
        split_ifs <;> positivity
      rw [add_eq_zero_iff_of_nonneg h1 h2, ih, List.forall_mem_cons]
      apply and_congr_left'
      rw [hp]
      simp only [ntn, mul_eq_zero, abs_eq_zero, sub_eq_zero]
      constructor
      · intro h h0 h90 hwp
        rcases h with h | h | h
        · exact h.symm
        · exact absurd h hwp.ne'
        · simp [h0, h90] at h
      · intro h
        by_cases hr : 0 ≤ p.1 ∧ p.1 ≤ 90
        · by_cases hwp : 0 < w p.1
          · exact Or.inl (h hr.1 hr.2 hwp).symm
          · exact Or.inr (Or.inl (le_antisymm (not_lt.mp hwp) (hw0 _)))
        · exact Or.inr (Or.inr (by simp [hr]))

/-- **C64**: the parameters returned for `physical` are those whose misfit the optimiser was minimising, in either
search order (for an `ashrae` source, whenever the fixed order `L < n` holds). -/
theorem returned_is_minimised (huge : ℝ) (source : String) (samples : List (Fl × Fl)) (weight : Fl → Fl) (u v : ℝ)
    (h : source = "martin_ruiz" ∨ u ≤ v) :
    ∃ n L, processReturn "physical" [fin u, fin v] = .ok [("n", n), ("K", 4), ("L", L)] ∧
      convertResidual huge source "physical" samples weight [fin u, fin v] =
        residual huge samples (fun a => Iam.physical a n 4 L) weight := by
  rcases lt_trichotomy u v with huv | huv | huv
  · refine ⟨fin v, fin u, by simp [processReturn, not_lt.mpr huv.le], ?_⟩
    by_cases hs : source = "martin_ruiz" <;> simp [convertResidual, physicalTrial, hs, huv]
  · subst huv
    refine ⟨fin u, fin u, by simp [processReturn], ?_⟩
    by_cases hs : source = "martin_ruiz" <;> simp [convertResidual, physicalTrial, hs]
  · have hs : source = "martin_ruiz" := h.resolve_right (not_le.mpr huv)
    refine ⟨fin u, fin v, by simp [processReturn, huv], ?_⟩
    simp [convertResidual, physicalTrial, hs, not_lt.mpr huv.le]

example (huge : ℝ) := returned_is_minimised huge "ashrae" [(0, 1), (60, 0.9)] sinWeight 0.002 1.5 (.inr (by norm_num))

/-! ### Recovering known parameters -/

/-- One value per variable, each within the bounds of that variable. -/
def InBounds (s : Setup) (x : List Fl) : Prop :=
  x.length = s.bounds.length ∧ ∀ i (h : i < s.bounds.length) (h' : i < x.length),
    (s.bounds[i]'h).1 ≤ x[i] ∧ x[i] ≤ (s.bounds[i]'h).2

/-- On the problem `(f, s)` the optimiser succeeds and finds a global minimum within the bounds. -/
def Minimises (opt : Optimizer) (f : List Fl → Fl) (s : Setup) : Prop :=
  ∃ x, opt f s = some x ∧ InBounds s x ∧ ∀ y, InBounds s y → f x ≤ f y

private theorem ashrae_fin (b : ℝ) (a : ℝ) :
    Iam.ashrae (fin a) (fin b) = fin (if 90 ≤ |a| then 0 else max 0 (1 - b * (1 / cosDeg a - 1))) := by
  by_cases h : 90 ≤ |a|
  · simp [Iam.ashrae, npwhere, h]
  · have hc' : Real.cos (a * (π / 180)) ≠ 0 := by
      have hp := Real.pi_pos
      have h' := abs_lt.mp (lt_of_not_ge h)
      apply ne_of_gt
      apply Real.cos_pos_of_mem_Ioo
      constructor <;> nlinarith
    simp [Iam.ashrae, npwhere, h, hc', cosDeg]

/-- **C64**: data generated by the `ashrae` model with `b` in `[1e-8, 1]`, including at least one angle strictly
between 0 and 60 degrees, is fitted with that very `b`, whatever the sampling, whenever the optimiser finds the
minimum of the weighted misfit over `b` in `[1e-8, 1]`. -/
theorem fit_recovers_ashrae (huge : ℝ) (opt : Optimizer) (b : ℝ) (hb0 : 1e-8 ≤ b) (hb1 : b ≤ 1)
    (angles : List ℝ) (hm : ∃ a ∈ angles, 0 < a ∧ a < 60)
    (ho : ∀ f s, s.bounds = [(fin 1e-8, fin 1)] →
      (∀ c, f [c] = residual huge (angles.map fun a => (fin a, Iam.ashrae (fin a) (fin b)))
          (fun a => Iam.ashrae a c) sinWeight) → Minimises opt f s) :
    fit huge opt (angles.map fun a => (fin a, Iam.ashrae (fin a) (fin b))) "ashrae" = .ok [("b", fin b)] := by
  set ev : ℝ → ℝ → ℝ := fun b a => if 90 ≤ |a| then 0 else max 0 (1 - b * (1 / cosDeg a - 1)) with hev
  have hval : ∀ b a : ℝ, Iam.ashrae (fin a) (fin b) = fin (ev b a) := fun b a => ashrae_fin b a
  set samples : List (ℝ × ℝ) := angles.map fun a => (a, ev b a) with hsam
  have hs : (angles.map fun a => (fin a, Iam.ashrae (fin a) (fin b))) = samples.map fun p => (fin p.1, fin p.2) := by
    simp only [hsam, List.map_map, Function.comp_def, hval]
  have hw : ∀ a, sinWeight (fin a) = fin (1 - Real.sin (a * (π / 180))) := by
    intro a; simp [sinWeight]
  have hw0 : ∀ a : ℝ, 0 ≤ 1 - Real.sin (a * (π / 180)) := fun a => by linarith [Real.sin_le_one (a * (π / 180))]
  obtain ⟨x, hx, ⟨hl, hbd⟩, hmin⟩ := 
    ho (fitResidual huge (samples.map fun p => (fin p.1, fin p.2)) "ashrae" sinWeight) (fitSetup "ashrae")
      (by simp [fitSetup]) (fun c => by rw [hs]; simp [fitResidual, modelAt, orNan])
  rw [hs]
  simp only [fit, minimize, hx]
  have hk : ("ashrae" : String) ∈ fitModels := by simp [fitModels]
  simp only [hk, not_true_eq_false, if_false]
  have hfs : (fitSetup "ashrae").bounds = [(fin 1e-08, 1)] := by simp [fitSetup]
  simp only [InBounds, hfs, List.length_cons, List.length_nil] at hl hbd hmin
  match x, hl with
  | [v], _ =>
    have h0 := hbd 0 (by simp) (by simp)
    obtain ⟨v, rfl, hv⟩ := within_of h0.1 h0.2
    have hle := hmin [fin b] ⟨by simp, fun i hi _ => by
      have : i = 0 := by simpa using hi
      subst this
      exact ⟨by simpa using hb0, by simpa using hb1⟩⟩
    have hres : ∀ c : ℝ, fitResidual huge (samples.map fun p => (fin p.1, fin p.2)) "ashrae" sinWeight [fin c] =
        residual huge (samples.map fun p => (fin p.1, fin p.2)) (fun a => Iam.ashrae a (fin c)) sinWeight := by
      intro c
      simp [fitResidual, modelAt, orNan]
    obtain ⟨r, hr, hr0, hriff⟩ := residual_zero_iff huge samples (fun a => Iam.ashrae a (fin v)) (ev v)
      (fun p _ => hval v p.1) sinWeight _ hw hw0
    obtain ⟨q, hq, hq0, hqiff⟩ := residual_zero_iff huge samples (fun a => Iam.ashrae a (fin b)) (ev b)
      (fun p _ => hval b p.1) sinWeight _ hw hw0
    rw [hres, hres, hr, hq, fin_le] at hle
    have hqz : q = 0 := hqiff.mpr (fun p hp _ _ _ => by
      obtain ⟨a, _, rfl⟩ := List.mem_map.mp hp
      rfl)
    have hrz := hriff.mp (le_antisymm (hqz ▸ hle) hr0)
    obtain ⟨a, ha, ha0, ha60⟩ := hm
    have hpi := Real.pi_pos
    have hsin : 0 < 1 - Real.sin (a * (π / 180)) := by
      have : Real.sin (a * (π / 180)) < Real.sin (π / 2) := by
        apply Real.sin_lt_sin_of_lt_of_le_pi_div_two
        · nlinarith
        · exact le_rfl
        · nlinarith
      rw [Real.sin_pi_div_two] at this
      linarith
    have hab := hrz (a, ev b a) (List.mem_map.mpr ⟨a, ha, rfl⟩) ha0.le (by linarith) hsin
    have h90 : ¬ 90 ≤ |a| := by rw [abs_of_pos ha0]; linarith
    have hc1 : cosDeg a < 1 := by
      rw [show (1 : ℝ) = Real.cos 0 by simp]
      apply Real.cos_lt_cos_of_nonneg_of_le_pi le_rfl
      · nlinarith
      · positivity
    have hc2 : 1 / 2 < cosDeg a := by
      rw [← Real.cos_pi_div_three]
      apply Real.cos_lt_cos_of_nonneg_of_le_pi
      · positivity
      · linarith
      · nlinarith
    have hi1 : 1 / cosDeg a < 2 := by
      rw [div_lt_iff₀ (by linarith)]; linarith
    have hi2 : 1 < 1 / cosDeg a := by
      rw [lt_div_iff₀ (by linarith)]; linarith
    have hpos : ∀ c : ℝ, c ≤ 1 → 0 ≤ c → 0 ≤ 1 - c * (1 / cosDeg a - 1) := fun c hc hc0 => by nlinarith
    simp only [hev, h90, if_false] at hab
    have hv0 : 0 ≤ v := le_trans (by norm_num) hv.1
    have hb0' : 0 ≤ b := le_trans (by norm_num) hb0
    rw [max_eq_right (hpos v hv.2 hv0), max_eq_right (hpos b hb1 hb0')] at hab
    have : v = b := by
      have h3 : (v - b) * (1 / cosDeg a - 1) = 0 := by linarith
      rcases mul_eq_zero.mp h3 with h | h
      · linarith
      · linarith
    simp [processReturn, this]

example (huge : ℝ) : convert huge lowest "martin_ruiz" [("a_r", fin 0.16)] "physical" sinWeight true =
    .ok [("n", fin 1.05), ("K", fin 4), ("L", fin 1e-6)] := by
  obtain ⟨f, hf, _⟩ := (Props.Iam.martinRuiz_isIam 0.16).2 (by norm_num)
  rw [convert_run (.martinRuiz 0.16 (by norm_num) f hf) huge lowest "physical" sinWeight true (by simp)]
  have hse : convertSetup "martin_ruiz" [("a_r", fin 0.16)] "physical" true =
      .ok ⟨[(fin 1e-6, fin 0.08), (fin 1.05, fin 2)], [fin 0.002, fin 1.1]⟩ := by
    have : ¬ (0.22 : ℝ) < 0.16 := by norm_num
    simp [convertSetup, getParam, martinRuizToPhysical, this]
  have h1 : (1e-6 : ℝ) ≤ 0.08 := by norm_num
  have h2 : (1.05 : ℝ) ≤ 2 := by norm_num
  have h3 : ¬ (1.05 : ℝ) < 1e-6 := by norm_num
  rw [hse]
  simp [lowest, processReturn, h1, h2, h3]

example : GoodSource "ashrae" [("b", fin 0.05)] (fun aoi => Iam.ashrae aoi (fin 0.05)) := .ashrae _

example (huge : ℝ) : fit huge (fun _ _ => some [fin 0.05])
    ([0, 30, 75, 120].map fun a => (fin a, Iam.ashrae (fin a) (fin 0.05))) "ashrae" = .ok [("b", fin 0.05)] := by
  apply fit_recovers_ashrae huge _ 0.05 (by norm_num) (by norm_num) [0, 30, 75, 120] ⟨30, by simp, by norm_num, by norm_num⟩
  intro f s hs hf
  refine ⟨[fin 0.05], rfl, ⟨by simp [hs], fun i hi _ => ?_⟩, fun y hy => ?_⟩
  · have : i = 0 := by simpa [hs] using hi
    subst this
    simp only [hs, List.getElem_cons_zero, fin_le]
    norm_num
  · obtain ⟨hl, hb⟩ := hy
    simp only [hs, List.length_cons, List.length_nil] at hl hb
    match y, hl with
    | [c], _ =>
      have h0 := hb 0 (by simp) (by simp)
      obtain ⟨v, rfl, hv⟩ := within_of h0.1 h0.2
      rw [hf, hf]
      have hs' : (([0, 30, 75, 120] : List ℝ).map fun a => (fin a, Iam.ashrae (fin a) (fin 0.05))) =
          (([0, 30, 75, 120] : List ℝ).map fun a => (a, if 90 ≤ |a| then 0 else max 0 (1 - 0.05 * (1 / cosDeg a - 1)))).map
            fun p => (fin p.1, fin p.2) := by
        simp only [List.map_map, Function.comp_def, ashrae_fin]
      have hw : ∀ a, sinWeight (fin a) = fin (1 - Real.sin (a * (π / 180))) := by
        intro a; simp [sinWeight]
      have hw0 : ∀ a : ℝ, 0 ≤ 1 - Real.sin (a * (π / 180)) := fun a => by linarith [Real.sin_le_one (a * (π / 180))]
      rw [hs']
      obtain ⟨r, hr, hr0, _⟩ := residual_zero_iff huge (([0, 30, 75, 120] : List ℝ).map fun a =>
        (a, if 90 ≤ |a| then 0 else max 0 (1 - 0.05 * (1 / cosDeg a - 1)))) (fun a => Iam.ashrae a (fin v))
        (fun a => if 90 ≤ |a| then 0 else max 0 (1 - v * (1 / cosDeg a - 1)))
        (fun p _ => ashrae_fin v p.1) sinWeight _ hw hw0
      obtain ⟨q, hq, _, hqi⟩ := residual_zero_iff huge (([0, 30, 75, 120] : List ℝ).map fun a =>
        (a, if 90 ≤ |a| then 0 else max 0 (1 - 0.05 * (1 / cosDeg a - 1)))) (fun a => Iam.ashrae a (fin 0.05))
        (fun a => if 90 ≤ |a| then 0 else max 0 (1 - 0.05 * (1 / cosDeg a - 1)))
        (fun p _ => ashrae_fin 0.05 p.1) sinWeight _ hw hw0
      have hq0 : q = 0 := hqi.mpr fun p hp _ _ _ => by
        obtain ⟨a, _, rfl⟩ := List.mem_map.mp hp
        rfl
      rw [hr, hq, hq0]
      exact hr0

end Pvlib.Props.IamFit
end
