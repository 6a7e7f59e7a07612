import Verif.Model.Decomposition
import Verif.Props.Spec

/-! # Property C29: GTI-DIRINT returns the best iterate -/

noncomputable section
open scoped Classical
namespace Pvlib.Props.GtiDirint
open Fl Pvlib.Irradiance

/-- |modelled - measured| of a pass at a point. -/
def misfit (poa : Series) (r : GtiIter) (p : ℕ) : Fl := Fl.abs (r.gti_model p - poa p)

/-- The data of a pass at a point: (ghi, dni, dhi, kt'). -/
def data (r : GtiIter) (p : ℕ) : Fl × Fl × Fl × Fl := (r.ghi p, r.dni p, r.dhi p, r.kt_prime p)

/-- The returned Series at a point. -/
def at' (b : Series × Series × Series × Series) (p : ℕ) : Fl × Fl × Fl × Fl :=
  (b.1 p, b.2.1 p, b.2.2.1 p, b.2.2.2 p)

private theorem lt_trans'' {x y z : Fl} (h : x < y) (h' : y < z) : x < z := by
  cases x <;> cases y <;> cases z <;> simp_all <;> linarith

/-- Invariant of the loop at a point. -/
private def Inv (poa : Series) (s : GtiState) (hist : List GtiIter) (p : ℕ) : Prop :=
  match hist with
  | [] => s.best = none ∧ s.best_diff p = 9999
  | _ => ∃ b, s.best = some b ∧
    ((s.best_diff p = 9999 ∧ (∀ r ∈ hist, ¬ misfit poa r p < 9999) ∧
        ∃ f, hist.getLast? = some f ∧ at' b p = data f p) ∨
     (∃ r ∈ hist, s.best_diff p = misfit poa r p ∧ misfit poa r p < 9999 ∧ at' b p = data r p ∧
        ∀ r' ∈ hist, ¬ misfit poa r' p < misfit poa r p))

private theorem pass_diff (step : Series → GtiIter) (poa : Series) (c : Fl) (s : GtiState) (p : ℕ) :
    (gtiPass step poa c s).best_diff p =
      if misfit poa (step s.poa_global_i) p < s.best_diff p then misfit poa (step s.poa_global_i) p
      else s.best_diff p := rfl

private theorem pass_best (step : Series → GtiIter) (poa : Series) (c : Fl) (s : GtiState) (p : ℕ)
    (b : Series × Series × Series × Series) (hb : s.best = some b) :
    ∃ b', (gtiPass step poa c s).best = some b' ∧
      at' b' p = if misfit poa (step s.poa_global_i) p < s.best_diff p then data (step s.poa_global_i) p
        else at' b p := by
  obtain ⟨b1, b2, b3, b4⟩ := b
  simp only [gtiPass, hb]
  refine ⟨_, rfl, ?_⟩
  by_cases h : misfit poa (step s.poa_global_i) p < s.best_diff p
  · have h' := h
    unfold misfit at h'
    simp [at', data, h, h']
  · have h' := h
    unfold misfit at h'
    simp [at', h, h']

private theorem not_self_lt (x : Fl) : ¬ x < x := by cases x <;> simp

private theorem pass_inv (step : Series → GtiIter) (poa : Series) (c : Fl) (s : GtiState) (hist : List GtiIter)
    (p : ℕ) (h : Inv poa s hist p) :
    Inv poa (gtiPass step poa c s) (step s.poa_global_i :: hist) p := by
  have hdiff := pass_diff step poa c s p
  cases hist with
  | nil =>
    obtain ⟨h1, h2⟩ := h
    rw [h2] at hdiff
    have hbest : (gtiPass step poa c s).best = some ((step s.poa_global_i).ghi, (step s.poa_global_i).dni,
        (step s.poa_global_i).dhi, (step s.poa_global_i).kt_prime) := by simp [gtiPass, h1]
    generalize step s.poa_global_i = r at *
    refine ⟨_, hbest, ?_⟩
    by_cases hlt : misfit poa r p < 9999
    · right
      refine ⟨r, by simp, by rw [hdiff, if_pos hlt], hlt, rfl, ?_⟩
      intro r' hr'
      rw [List.mem_singleton.mp hr']; exact not_self_lt _
    · left
      refine ⟨by rw [hdiff, if_neg hlt], ?_, r, by simp, rfl⟩
      intro r' hr'
      rw [List.mem_singleton.mp hr']; exact hlt
  | cons r0 hist0 =>
    obtain ⟨b, hb, hcase⟩ := h
    obtain ⟨b', hb', hat⟩ := pass_best step poa c s p b hb
    generalize step s.poa_global_i = r at *
    refine ⟨b', hb', ?_⟩
    rcases hcase with ⟨hd, hall, f, hf, hbf⟩ | ⟨r1, hr1, hd, hlt1, hb1, hmin⟩
    · rw [hd] at hdiff hat
      by_cases hlt : misfit poa r p < 9999
      · right
        refine ⟨r, by simp, by rw [hdiff, if_pos hlt], hlt, by rw [hat, if_pos hlt], ?_⟩
        intro r' hr'
        rcases List.mem_cons.mp hr' with rfl | hr'
        · exact not_self_lt _
        · intro hc; exact hall r' hr' (lt_trans'' hc hlt)
      · left
        refine ⟨by rw [hdiff, if_neg hlt], ?_, f, ?_, by rw [hat, if_neg hlt, hbf]⟩
        · intro r' hr'
          rcases List.mem_cons.mp hr' with rfl | hr'
          · exact hlt
          · exact hall r' hr'
        · rw [List.getLast?_cons_cons]; exact hf
    · right
      rw [hd] at hdiff hat
      by_cases hlt : misfit poa r p < misfit poa r1 p
      · refine ⟨r, by simp, by rw [hdiff, if_pos hlt], lt_trans'' hlt hlt1, by rw [hat, if_pos hlt], ?_⟩
        intro r' hr'
        rcases List.mem_cons.mp hr' with rfl | hr'
        · exact not_self_lt _
        · intro hc; exact hmin r' hr' (lt_trans'' hc hlt)
      · refine ⟨r1, List.mem_cons_of_mem _ hr1, by rw [hdiff, if_neg hlt], hlt1,
          by rw [hat, if_neg hlt, hb1], ?_⟩
        intro r' hr'
        rcases List.mem_cons.mp hr' with rfl | hr'
        · exact hlt
        · exact hmin r' hr'

private theorem loop_inv (n : ℕ) (step : Series → GtiIter) (poa : Series) (lt90 : ℕ → Prop) (p : ℕ) :
    ∀ (cs : List Fl) (s : GtiState) (hist : List GtiIter), Inv poa s hist p →
      Inv poa (gtiLoop n step poa lt90 cs s hist).1 (gtiLoop n step poa lt90 cs s hist).2 p := by
  intro cs
  induction cs with
  | nil => intro s hist h; exact h
  | cons c cs ih =>
    intro s hist h
    simp only [gtiLoop]
    split_ifs
    · exact h
    · exact ih _ _ (pass_inv step poa c s hist p h)

/-- **C29**.  At every point `p`, the returned (ghi, dni, dhi, kt') is the data of one of the passes
performed; if some pass came within 9999 W/m² of the measurement, that pass has the smallest misfit of
all passes performed (NaN misfits never win); otherwise it is the first pass.  `step` (the numerical
content of a pass) and the number of points are arbitrary. -/
theorem gtiDirint_best (n : ℕ) (step : Series → GtiIter) (poa : Series) (lt90 : ℕ → Prop) (m : ℕ)
    (b : Series × Series × Series × Series) (hist : List GtiIter)
    (h : gtiDirintLt90 n step poa lt90 m = .ok (b, hist)) (p : ℕ) :
    (∃ r ∈ hist, at' b p = data r p ∧ misfit poa r p < 9999 ∧
        ∀ r' ∈ hist, ¬ misfit poa r' p < misfit poa r p) ∨
    ((∀ r ∈ hist, ¬ misfit poa r p < 9999) ∧ ∃ f, hist.getLast? = some f ∧ at' b p = data f p) := by
  have hinv := loop_inv n step poa lt90 p (gtiCoeffs m) ⟨poa, fun _ => 9999, none⟩ [] ⟨rfl, rfl⟩
  simp only [gtiDirintLt90] at h
  cases hg : gtiLoop n step poa lt90 (gtiCoeffs m) ⟨poa, fun _ => 9999, none⟩ [] with
  | mk s hist' =>
    rw [hg] at h hinv
    simp only at h hinv
    cases hb : s.best with
    | none => rw [hb] at h; simp at h
    | some b' =>
      rw [hb] at h
      simp only [Except.ok.injEq, Prod.mk.injEq] at h
      obtain ⟨rfl, rfl⟩ := h
      cases hist' with
      | nil => simp [Inv, hb] at hinv
      | cons r0 hist0 =>
        obtain ⟨b'', hb'', hcase⟩ := hinv
        rw [hb] at hb''
        simp only [Option.some.injEq] at hb''
        subst hb''
        rcases hcase with ⟨-, h1, h2⟩ | ⟨r, hr, -, h1, h2, h3⟩
        · exact Or.inr ⟨h1, h2⟩
        · exact Or.inl ⟨r, hr, h2, h1, h3⟩

private theorem loop_stop (n : ℕ) (step : Series → GtiIter) (poa : Series) (lt90 : ℕ → Prop) :
    ∀ (cs : List Fl) (s : GtiState) (hist : List GtiIter),
      (gtiLoop n step poa lt90 cs s hist).2.length ≤ hist.length + cs.length ∧
      ((gtiLoop n step poa lt90 cs s hist).2.length = hist.length + cs.length ∨
       ∀ p < n, lt90 p → (gtiLoop n step poa lt90 cs s hist).1.best_diff p ≤ 1) := by
  intro cs
  induction cs with
  | nil => intro s hist; simp [gtiLoop]
  | cons c cs ih =>
    intro s hist
    simp only [gtiLoop]
    split_ifs with hst
    · exact ⟨by simp, Or.inr hst⟩
    · have := ih (gtiPass step poa c s) (step s.poa_global_i :: hist)
      simp only [List.length_cons] at this ⊢
      rw [show hist.length + (cs.length + 1) = hist.length + 1 + cs.length by omega]
      exact this

/-- The damping of pass `k` (0-based): three full steps, then half, quarter and eighth steps. -/
def damping (k : ℕ) : ℝ := if k < 3 then 1 else if k < 10 then 0.5 else if k < 20 then 0.25 else 0.125

/-- The guesses of plane-of-array irradiance specified independently of the loop: the measurement first, then each
guess minus its damped misfit, but at least 1. -/
def guess (step : Series → GtiIter) (poa : Series) : ℕ → Series
  | 0 => poa
  | k + 1 => fun p => maximum (fin 1)
      (guess step poa k p - fin (damping k) * ((step (guess step poa k)).gti_model p - poa p))

private theorem coeffs_getElem (m k : ℕ) (h : k < (gtiCoeffs m).length) : (gtiCoeffs m)[k] = fin (damping k) := by
  simp only [gtiCoeffs, List.getElem_map, List.getElem_range, damping]
  split_ifs <;> simp

private theorem loop_guess (n : ℕ) (step : Series → GtiIter) (poa : Series) (lt90 : ℕ → Prop) (m : ℕ) :
    ∀ (cs : List Fl) (s : GtiState) (hist : List GtiIter), cs = (gtiCoeffs m).drop hist.length →
      s.poa_global_i = guess step poa hist.length →
      hist.reverse = (List.range hist.length).map (fun k => step (guess step poa k)) →
      (gtiLoop n step poa lt90 cs s hist).2.reverse =
        (List.range (gtiLoop n step poa lt90 cs s hist).2.length).map (fun k => step (guess step poa k)) := by
  intro cs
  induction cs with
  | nil => intro s hist _ _ h; exact h
  | cons c cs ih =>
    intro s hist hc hs h
    have hlt : hist.length < (gtiCoeffs m).length := by
      by_contra hn
      rw [List.drop_eq_nil_of_le (by omega)] at hc
      exact List.cons_ne_nil _ _ hc
    have hc' := hc
    rw [List.drop_eq_getElem_cons hlt, coeffs_getElem m _ hlt] at hc'
    obtain ⟨h1, h2⟩ := List.cons.inj hc'
    simp only [gtiLoop]
    split_ifs
    · exact h
    · refine ih _ _ (by simpa using h2) ?_ ?_
      · funext p
        simp only [gtiPass, List.length_cons, guess, one_eq, hs, h1]
      · simp [h, List.range_succ, hs]

/-- **C29** (iteration): the passes performed are, in order, the evaluations of the specified guesses; every guess after
the first is at least 1 (or NaN). -/
theorem gtiDirint_guesses (n : ℕ) (step : Series → GtiIter) (poa : Series) (lt90 : ℕ → Prop) (m : ℕ)
    (b : Series × Series × Series × Series) (hist : List GtiIter)
    (h : gtiDirintLt90 n step poa lt90 m = .ok (b, hist)) :
    hist.reverse = (List.range hist.length).map (fun k => step (guess step poa k)) ∧
    ∀ k p, guess step poa (k + 1) p = nan ∨ fin 1 ≤ guess step poa (k + 1) p := by
  constructor
  · have hl := loop_guess n step poa lt90 m (gtiCoeffs m) ⟨poa, fun _ => 9999, none⟩ [] (by simp) rfl (by simp)
    simp only [gtiDirintLt90] at h
    cases hg : gtiLoop n step poa lt90 (gtiCoeffs m) ⟨poa, fun _ => 9999, none⟩ [] with
    | mk s hist' =>
      rw [hg] at h hl
      simp only at h hl
      cases hb : s.best with
      | none => rw [hb] at h; cases h
      | some b' =>
        rw [hb] at h
        cases h
        exact hl
  · intro k p
    simp only [guess]
    by_cases hn : maximum (fin 1) (guess step poa k p - fin (damping k) * ((step (guess step poa k)).gti_model p - poa p))
        = nan
    · exact Or.inl hn
    · exact Or.inr (le_maximum_left hn)

/-- **C29** (stopping): at most `max_iterations` passes are made; fewer only if every point with
`aoi < 90` was matched within 1 W/m² by some pass. -/
theorem gtiDirint_stops (n : ℕ) (step : Series → GtiIter) (poa : Series) (lt90 : ℕ → Prop) (m : ℕ)
    (b : Series × Series × Series × Series) (hist : List GtiIter)
    (h : gtiDirintLt90 n step poa lt90 m = .ok (b, hist)) :
    hist.length ≤ m ∧
    (hist.length = m ∨ ∀ p < n, lt90 p → ∃ r ∈ hist, misfit poa r p ≤ 1 ∧ at' b p = data r p) := by
  have hs := loop_stop n step poa lt90 (gtiCoeffs m) ⟨poa, fun _ => 9999, none⟩ []
  have hlen : (gtiCoeffs m).length = m := by simp [gtiCoeffs]
  rw [hlen] at hs
  have hh := h
  simp only [gtiDirintLt90] at h
  cases hg : gtiLoop n step poa lt90 (gtiCoeffs m) ⟨poa, fun _ => 9999, none⟩ [] with
  | mk s hist' =>
    rw [hg] at h hs
    simp only at h hs
    cases hb : s.best with
    | none => rw [hb] at h; simp at h
    | some b' =>
      rw [hb] at h
      simp only [Except.ok.injEq, Prod.mk.injEq] at h
      obtain ⟨rfl, rfl⟩ := h
      simp only [List.length_nil, zero_add] at hs
      refine ⟨hs.1, hs.2.imp id fun h1 p hp hl => ?_⟩
      have hinv := loop_inv n step poa lt90 p (gtiCoeffs m) ⟨poa, fun _ => 9999, none⟩ [] ⟨rfl, rfl⟩
      rw [hg] at hinv
      have hle := h1 p hp hl
      cases hist' with
      | nil => simp [Inv, hb] at hinv
      | cons r0 hist0 =>
        obtain ⟨b'', hb'', hcase⟩ := hinv
        rw [hb] at hb''
        simp only [Option.some.injEq] at hb''
        subst hb''
        rcases hcase with ⟨h9, -, -⟩ | ⟨r, hr, h1, -, h2, -⟩
        · simp only at h9
          rw [h9] at hle
          exfalso
          have : (9999 : ℝ) ≤ 1 := hle
          norm_num at this
        · simp only at h1
          rw [h1] at hle
          exact ⟨r, hr, hle, h2⟩

private theorem loop_best_ne_none (n : ℕ) (step : Series → GtiIter) (poa : Series) (lt90 : ℕ → Prop) :
    ∀ (cs : List Fl) (s : GtiState) (hist : List GtiIter), s.best ≠ none →
      (gtiLoop n step poa lt90 cs s hist).1.best ≠ none := by
  intro cs
  induction cs with
  | nil => intro s hist h; exact h
  | cons c cs ih =>
    intro s hist h
    simp only [gtiLoop]
    split_ifs
    · exact h
    · exact ih _ _ (by simp [gtiPass])

/-- **C29** (totality): with at least one iteration allowed and at least one point with `aoi < 90` (which
`gti_dirint` checks) there is a result; with `max_iterations = 0` the code fails on an unbound name. -/
theorem gtiDirint_error_iff (n : ℕ) (step : Series → GtiIter) (poa : Series) (lt90 : ℕ → Prop) (m : ℕ) :
    gtiDirintLt90 n step poa lt90 m = .error .unboundLocal ↔ m = 0 ∨ ¬ ∃ p < n, lt90 p := by
  cases m with
  | zero => simp [gtiDirintLt90, gtiCoeffs, gtiLoop]
  | succ m =>
    have hc : ∃ c cs, gtiCoeffs (m + 1) = c :: cs := by
      simp only [gtiCoeffs, List.range_succ_eq_map, List.map_cons]
      exact ⟨_, _, rfl⟩
    obtain ⟨c, cs, hc⟩ := hc
    simp only [gtiDirintLt90, hc, gtiLoop, Nat.add_eq_zero_iff, one_ne_zero, and_false, false_or]
    by_cases hex : ∃ p < n, lt90 p
    · have h9 : ¬ ∀ p < n, lt90 p → (9999 : Fl) ≤ 1 := by
        intro h
        obtain ⟨p, hp, hl⟩ := hex
        have : (9999 : ℝ) ≤ 1 := h p hp hl
        norm_num at this
      rw [if_neg h9]
      have := loop_best_ne_none n step poa lt90 cs (gtiPass step poa c ⟨poa, fun _ => 9999, none⟩)
        [step poa] (by simp [gtiPass])
      cases hb : (gtiLoop n step poa lt90 cs (gtiPass step poa c ⟨poa, fun _ => 9999, none⟩) [step poa]).1.best with
      | none => exact absurd hb this
      | some b => simp [hex]
    · rw [if_pos]
      · simp [hex]
      · intro p hp hl; exact absurd ⟨p, hp, hl⟩ hex

/-- One pass through a re-transposition that always answers 510 W/m² for 500. -/
theorem demo_pass : ∃ b hist, gtiDirintLt90 1 (fun x => ⟨x, x, x, x, fun _ => fin 510⟩) (fun _ => fin 500) (fun _ => True) 2 =
    .ok (b, hist) := by
  cases hres : gtiDirintLt90 1 (fun x => ⟨x, x, x, x, fun _ => fin 510⟩) (fun _ => fin 500) (fun _ => True) 2 with
  | ok v => exact ⟨v.1, v.2, rfl⟩
  | error e =>
    exfalso
    have he : e = .unboundLocal := by
      simp only [gtiDirintLt90] at hres
      split at hres
      · simp at hres
      · simpa using hres.symm
    rw [he, gtiDirint_error_iff] at hres
    simp at hres

example := gtiDirint_guesses _ _ _ _ _ _ _ demo_pass.choose_spec.choose_spec
example := gtiDirint_best _ _ _ _ _ _ _ demo_pass.choose_spec.choose_spec 0
example := gtiDirint_stops _ _ _ _ _ _ _ demo_pass.choose_spec.choose_spec

/-- Non-vacuity: a two-pass run in which the second pass is better. -/
example : ∃ (step : Series → GtiIter) (b : Series × Series × Series × Series) (hist : List GtiIter),
    gtiDirintLt90 1 step (fun _ => fin 500) (fun _ => True) 2 = .ok (b, hist) ∧ hist.length = 2 := by
  let step : Series → GtiIter := fun x => ⟨x, x, x, x, fun _ => x 0 + fin 10⟩
  have key : (gtiLoop 1 step (fun _ => fin 500) (fun _ => True) (gtiCoeffs 2)
      ⟨fun _ => fin 500, fun _ => 9999, none⟩ []).2.length = 2 := by
    have hc : gtiCoeffs 2 = [1, 1] := by simp [gtiCoeffs, List.range_succ]
    rw [hc]
    have a1 : ¬ ((9999 : Fl) ≤ 1) := by
      show ¬ ((9999 : ℝ) ≤ 1); norm_num
    have a2 : ¬ (Fl.abs ((fin 500 + fin 10) - fin 500) ≤ (1 : Fl)) := by
      simp only [fin_add, fin_sub, abs_fin, one_eq, fin_le]; norm_num
    have a3 : Fl.abs ((fin 500 + fin 10) - fin 500) < (9999 : Fl) := by
      simp only [fin_add, fin_sub, abs_fin, ofNat_eq, fin_lt]; norm_num
    simp only [gtiLoop, gtiPass, step, a3, if_true]
    rw [if_neg, if_neg] <;> simp [a1, a2]
  have herr : gtiDirintLt90 1 step (fun _ => fin 500) (fun _ => True) 2 ≠ .error .unboundLocal := by
    rw [Ne, gtiDirint_error_iff]; simp
  cases hres : gtiDirintLt90 1 step (fun _ => fin 500) (fun _ => True) 2 with
  | error e =>
    exfalso
    simp only [gtiDirintLt90] at hres herr
    split at hres
    · simp at hres
    · simp at hres; subst hres; exact herr (by simp_all)
  | ok v =>
    refine ⟨step, v.1, v.2, hres, ?_⟩
    simp only [gtiDirintLt90] at hres
    split at hres
    · simp only [Except.ok.injEq] at hres; rw [← hres]; exact key
    · simp at hres

end Pvlib.Props.GtiDirint
end
