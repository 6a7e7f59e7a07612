import Verif.Model.Small

/-! # Property C209: inputs of Newton's method (scalars, arrays, keywords) -/

noncomputable section
open scoped Classical
namespace Pvlib.Props.NewtonInputs
open Fl Pvlib.Small

private theorem fold_mem (s : List ℕ) (ss : List (List ℕ)) :
    ss.foldl (fun best t => if size best < size t then t else best) s ∈ s :: ss := by
  induction ss generalizing s with
  | nil => simp
  | cons t ss ih =>
    simp only [List.foldl_cons]
    have := ih (if size s < size t then t else s)
    rcases List.mem_cons.1 this with h | h
    · rw [h]; split <;> simp
    · simp [h]

private theorem fold_max (s : List ℕ) (ss : List (List ℕ)) : ∀ t ∈ s :: ss,
    size t ≤ size (ss.foldl (fun best t => if size best < size t then t else best) s) := by
  induction ss generalizing s with
  | nil => simp
  | cons u ss ih =>
    intro t ht
    simp only [List.foldl_cons]
    have h := ih (if size s < size u then u else s)
    have h0 := h _ (List.mem_cons_self)
    rcases List.mem_cons.1 ht with rfl | ht
    · refine le_trans ?_ h0; split <;> omega
    · rcases List.mem_cons.1 ht with rfl | ht
      · refine le_trans ?_ h0; split <;> omega
      · exact h t (List.mem_cons_of_mem _ ht)

/-- **C209a.** The shape is that of one of the inputs, and no input has more elements. -/
theorem shape_largest (s : List ℕ) (ss : List (List ℕ)) : shapeOfMaxSize (s :: ss) ∈ s :: ss ∧ ∀ t ∈ s :: ss, t.prod ≤ (shapeOfMaxSize (s :: ss)).prod :=
  ⟨fold_mem s ss, fold_max s ss⟩

private theorem dim_self (a : ℕ) : dim a a = some a := by simp [dim]

private theorem bcastRev_self (s : List ℕ) : bcastRev s s = some s := by
  induction s with
  | nil => rfl
  | cons a s ih => simp only [bcastRev, dim_self, ih]

private theorem bcastRev_nil (s : List ℕ) : bcastRev [] s = some s := by cases s <;> rfl

private theorem casts_self (s : List ℕ) : castsTo s s := by simp [castsTo, bcast, bcastRev_self]

private theorem casts_scalar (s : List ℕ) : castsTo [] s := by simp [castsTo, bcast, bcastRev_nil]

/-- **C209b.** Scalars may be mixed with arrays of one common shape (with two or more elements): the iteration then starts with an array of
this shape, whichever of the arguments are arrays; if all are scalars it starts with the scalar.  It never fails. -/
theorem common_shape {s : List ℕ} (hs : 2 ≤ s.prod) {x0 : Arg} {args : List Arg} (h : ∀ a ∈ x0 :: args, a = .scalar ∨ a = .array s)
    (kw : List (String × Fl)) :
    prepareNewtonInputs x0 args kw = .ok (if ∀ a ∈ x0 :: args, a = .scalar then x0 else .array s, override newtonDefaults kw) := by
  by_cases hall : ∀ a ∈ x0 :: args, a = .scalar
  · rw [if_pos hall]
    unfold prepareNewtonInputs
    dsimp only
    rw [if_pos]
    rw [Bool.and_eq_true, List.all_eq_true]
    refine ⟨by rw [hall x0 (by simp)]; rfl, fun a ha => by rw [hall a (by simp [ha])]; rfl⟩
  · rw [if_neg hall]
    push Not at hall
    obtain ⟨a, ha, hna⟩ := hall
    have has : a = .array s := (h a ha).resolve_left hna
    unfold prepareNewtonInputs
    dsimp only
    rw [if_neg]
    · have hm : shapeOfMaxSize (x0.shape :: args.map Arg.shape) = s := by
        obtain ⟨h1, h2⟩ := shape_largest x0.shape (args.map Arg.shape)
        rw [← List.map_cons (f := Arg.shape)] at h1 h2
        obtain ⟨b, hb, hbs⟩ := List.mem_map.1 h1
        rcases h b hb with rfl | rfl
        · have := h2 s (List.mem_map.2 ⟨a, ha, by rw [has]; rfl⟩)
          rw [List.map_cons] at hbs this
          rw [← hbs] at this
          simp [Arg.shape] at this
          omega
        · rw [List.map_cons] at hbs; exact hbs.symm
      rw [hm, if_pos]
      rcases h x0 (by simp) with rfl | rfl
      · exact casts_scalar s
      · exact casts_self s
    · rw [Bool.and_eq_true, List.all_eq_true]
      rintro ⟨h1, h2⟩
      rcases List.mem_cons.1 ha with rfl | ha
      · rw [has] at h1; simp [Arg.isScalar] at h1
      · have := h2 a ha
        rw [has] at this; simp [Arg.isScalar] at this

/-- **C209c.** Two-dimensional broadcasting is not supported: starting values of shape (3, 1) with an argument of shape (1, 4), which numpy would
broadcast to (3, 4), raise ValueError; so does an empty array of starting values with scalar arguments. -/
theorem no_broadcast (kw : List (String × Fl)) :
    bcast [3, 1] [1, 4] = some [3, 4] ∧ prepareNewtonInputs (.array [3, 1]) [.array [1, 4]] kw = .error .valueError ∧
    prepareNewtonInputs (.array [0]) [.scalar] kw = .error .valueError := by
  refine ⟨by decide, ?_, ?_⟩
  · unfold prepareNewtonInputs
    rw [if_neg (by decide)]
    dsimp only
    rw [if_neg (by unfold castsTo; decide)]
  · unfold prepareNewtonInputs
    rw [if_neg (by decide)]
    dsimp only
    rw [if_neg (by unfold castsTo; decide)]

/-- **C209d.** A keyword given by the user has the user's value; `tol` and `maxiter` not given are 1e-6 and 100; other keywords not given are absent. -/
theorem user_keywords_win {kw : List (String × Fl)} (hd : (kw.map Prod.fst).Nodup) :
    (∀ p ∈ kw, override newtonDefaults kw p.1 = some p.2) ∧
    ("tol" ∉ kw.map Prod.fst → override newtonDefaults kw "tol" = some 1e-6) ∧
    ("maxiter" ∉ kw.map Prod.fst → override newtonDefaults kw "maxiter" = some 100) ∧
    ∀ k, k ∉ kw.map Prod.fst → k ≠ "tol" → k ≠ "maxiter" → override newtonDefaults kw k = none := by
  have none_of : ∀ k, k ∉ kw.map Prod.fst → kw.reverse.lookup k = none := by
    intro k hk
    rw [List.lookup_eq_none_iff]
    intro p hp
    have : k ≠ p.1 := by
      rintro rfl
      exact hk (List.mem_map.2 ⟨p, by simpa using hp, rfl⟩)
    simpa using this
  refine ⟨?_, ?_, ?_, ?_⟩
  · rintro ⟨k, x⟩ hp
    have : kw.reverse.lookup k = some x := by
      have hd' : (kw.reverse.map Prod.fst).Nodup := by rw [List.map_reverse]; exact List.nodup_reverse.2 hd
      have hp' : (k, x) ∈ kw.reverse := by simpa using hp
      generalize kw.reverse = l at hd' hp'
      induction l with
      | nil => simp at hp'
      | cons q l ih =>
        obtain ⟨k', x'⟩ := q
        simp only [List.map_cons, List.nodup_cons] at hd'
        rcases List.mem_cons.1 hp' with h | h
        · obtain ⟨rfl, rfl⟩ := Prod.mk.inj h; simp [List.lookup]
        · have hne : k ≠ k' := by rintro rfl; exact hd'.1 (List.mem_map.2 ⟨_, h, rfl⟩)
          rw [List.lookup_cons]
          have : (k == k') = false := by simpa using hne
          rw [this]; exact ih hd'.2 h
    simp only [override, this]
  · intro h; simp only [override, none_of _ h, newtonDefaults]; rfl
  · intro h; simp only [override, none_of _ h, newtonDefaults]; rfl
  · intro k h h1 h2
    simp only [override, none_of _ h, newtonDefaults]
    have e1 : (k == "tol") = false := by simpa using h1
    have e2 : (k == "maxiter") = false := by simpa using h2
    simp only [List.lookup, e1, e2]

example : prepareNewtonInputs .scalar [.array [5], .scalar, .array [5]] [("tol", 1e-3)] = .ok (.array [5], override newtonDefaults [("tol", 1e-3)]) := by
  rw [common_shape (s := [5]) (by decide) (by simp), if_neg (by simp)]

/-- **C209e.** `get_pandas_index` returns the index of the first pandas object among its arguments, and None exactly if there is none. -/
theorem first_index {ι : Type} (args : List (Maybe ι)) :
    (getPandasIndex args = none ↔ ∀ a ∈ args, a = .other) ∧
    ∀ i, getPandasIndex args = some i ↔ ∃ pre post, args = pre ++ .pandas i :: post ∧ ∀ a ∈ pre, a = .other := by
  constructor
  · unfold getPandasIndex
    rw [List.findSome?_eq_none_iff]
    refine forall₂_congr fun a _ => ?_
    cases a <;> simp
  · intro i
    unfold getPandasIndex
    rw [List.findSome?_eq_some_iff]
    constructor
    · rintro ⟨pre, a, post, rfl, ha, hpre⟩
      cases a with
      | other => simp at ha
      | pandas j =>
        obtain rfl : j = i := by simpa using ha
        refine ⟨pre, post, rfl, fun b hb => ?_⟩
        have := hpre b hb
        cases b <;> simp_all
    · rintro ⟨pre, post, rfl, hpre⟩
      refine ⟨pre, .pandas i, post, rfl, rfl, fun b hb => ?_⟩
      rw [hpre b hb]

example : getPandasIndex [.other, .pandas 7, .pandas 8] = some 7 := by
  rw [(first_index _).2]; exact ⟨[.other], [.pandas 8], rfl, by simp⟩

end Pvlib.Props.NewtonInputs
end
