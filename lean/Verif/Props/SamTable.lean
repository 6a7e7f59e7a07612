import Verif.Model.Small

/-! # Property C207: tables of the SAM libraries -/

noncomputable section
open scoped Classical
namespace Pvlib.Props.SamTable
open Fl Pvlib.Small

private theorem collectE_ok {α β : Type} {f : α → Except PyErr β} {xs : List α} {ys : List β} (h : collectE f xs = .ok ys) :
    List.Forall₂ (fun x y => f x = .ok y) xs ys := by
  induction xs generalizing ys with
  | nil => simp only [collectE, Except.ok.injEq] at h; subst h; exact .nil
  | cons x xs ih =>
    unfold collectE at h
    cases hx : f x with
    | error e => rw [hx] at h; simp at h
    | ok y =>
      rw [hx] at h
      dsimp only at h
      cases hr : collectE f xs with
      | error e => rw [hr] at h; simp at h
      | ok l => rw [hr] at h; simp only [Except.ok.injEq] at h; subst h; exact .cons hx (ih hr)

private theorem collectE_of {α β : Type} {f : α → Except PyErr β} {xs : List α} {ys : List β}
    (h : List.Forall₂ (fun x y => f x = .ok y) xs ys) : collectE f xs = .ok ys := by
  induction h with
  | nil => rfl
  | cons hx _ ih => unfold collectE; rw [hx]; dsimp only; rw [ih]

private theorem collectE_error {α β : Type} {f : α → Except PyErr β} {e : PyErr} (hf : ∀ x e', f x = .error e' → e' = e) {xs : List α}
    {x : α} (hx : x ∈ xs) (he : f x = .error e) : collectE f xs = .error e := by
  induction xs with
  | nil => simp at hx
  | cons y ys ih =>
    unfold collectE
    cases hy : f y with
    | error e' => dsimp only; rw [hf _ _ hy]
    | ok v =>
      dsimp only
      have : x ∈ ys := by
        rcases List.mem_cons.1 hx with rfl | h
        · rw [he] at hy; simp at hy
        · exact h
      rw [ih this]

private theorem collectE_errs {α β : Type} {f : α → Except PyErr β} {e e' : PyErr} (hf : ∀ x e', f x = .error e' → e' = e) {xs : List α}
    (h : collectE f xs = .error e') : e' = e := by
  induction xs with
  | nil => simp [collectE] at h
  | cons x xs ih =>
    unfold collectE at h
    cases hx : f x with
    | error e2 => rw [hx] at h; rw [← Except.error.inj h]; exact hf x e2 hx
    | ok y =>
      rw [hx] at h
      dsimp only at h
      cases hr : collectE f xs with
      | error e2 => rw [hr] at h; exact ih (hr.trans h)
      | ok l => rw [hr] at h; simp at h

/-- **C207a.** The second and third line of the file (units and SAM's names) have no effect on the table. -/
theorem sam_units_ignored (pyFloat : Text → Option Fl) (header : List Text) (u v u' v' : Line) (ls : List Line) :
    parseRawSam pyFloat header (u :: v :: ls) = parseRawSam pyFloat header (u' :: v' :: ls) := rfl

/-- **C207b.** The table has a row for every column of the file, named as there with underscores for spaces, and a column for every product,
in the order of the file and with the normalised name; every cell outside the row ADRCoefficients is the file's. -/
theorem sam_cells {pyFloat : Text → Option Fl} {header : List Text} {u v : Line} {ls : List Line} {t : SamTable}
    (h : parseRawSam pyFloat header (u :: v :: ls) = .ok t) :
    t.attributes = header.map (fun a => a.map fun c => if c = ' ' then '_' else c) ∧
    t.products = ls.map (fun l => PvFunctions.translate l.name) ∧
    t.columns.length = ls.length ∧
    ∀ (i j : ℕ) l a, ls[i]? = some l → t.attributes[j]? = some a → a ≠ "ADRCoefficients".toList →
      ∃ col, t.columns[i]? = some col ∧ col.length = l.cells.length ∧ col[j]? = l.cells[j]? := by
  unfold parseRawSam at h
  dsimp only at h
  rw [show (u :: v :: ls).drop 2 = ls from rfl] at h
  cases hk : (header.map underscore).findIdx? (fun a => a = "ADRCoefficients".toList) with
  | none =>
    rw [hk] at h
    simp only [Except.ok.injEq] at h
    subst h
    refine ⟨rfl, by simp [PvFunctions.normalizeNames, Function.comp_def], by simp, ?_⟩
    intro i j l a hl ha hne
    exact ⟨l.cells, by simp [hl], rfl, rfl⟩
  | some k =>
    rw [hk] at h
    dsimp only at h
    cases hc : collectE (adrColumn pyFloat k) (ls.map Line.cells) with
    | error e => rw [hc] at h; simp at h
    | ok cols =>
      rw [hc] at h
      simp only [Except.ok.injEq] at h
      subst h
      have hf := collectE_ok hc
      refine ⟨rfl, by simp [PvFunctions.normalizeNames, Function.comp_def], by simpa using hf.length_eq.symm, ?_⟩
      intro i j l a hl ha hne
      have hi : i < ls.length := (List.getElem?_eq_some_iff.1 hl).1
      have hi' : i < cols.length := by rw [← hf.length_eq]; simpa using hi
      have hrel := List.Forall₂.get hf (i := i) (by simpa using hi) hi'
      have hle : ls[i] = l := (List.getElem?_eq_some_iff.1 hl).2
      simp only [List.get_eq_getElem, List.getElem_map, hle] at hrel
      refine ⟨cols[i], by simp [hi'], ?_⟩
      have hkj : k ≠ j := by
        rintro rfl
        obtain ⟨hlt, hp, -⟩ := List.findIdx?_eq_some_iff_getElem.1 hk
        have : (header.map underscore)[k]? = some (header.map underscore)[k] := List.getElem?_eq_getElem hlt
        dsimp only at ha
        rw [this] at ha
        exact hne (by rw [← Option.some.inj ha]; simpa using hp)
      unfold adrColumn at hrel
      cases hck : l.cells[k]? with
      | none => rw [hck] at hrel; simp only [Except.ok.injEq] at hrel; rw [← hrel]; exact ⟨rfl, rfl⟩
      | some c =>
        rw [hck] at hrel
        dsimp only at hrel
        cases had : adrCell pyFloat c with
        | error e => rw [had] at hrel; simp at hrel
        | ok c' =>
          rw [had] at hrel
          simp only [Except.ok.injEq] at hrel
          rw [← hrel]
          exact ⟨by simp, by rw [List.getElem?_set_ne hkj]⟩

/-- A word: not empty, without white space and square brackets. -/
def Word (w : Text) : Prop := w ≠ [] ∧ ∀ c ∈ w, Panond.isSpace c = false ∧ c ≠ '[' ∧ c ≠ ']'

/-- Words with one or more spaces between them. -/
def spaced (w : Text) : List (ℕ × Text) → Text
  | [] => w
  | (n, v) :: rest => w ++ List.replicate (n + 1) ' ' ++ spaced v rest

private theorem split_word {w : Text} (hw : ∀ c ∈ w, Panond.isSpace c = false) (s : Text) :
    Panond.splitBy Panond.isSpace (w ++ ' ' :: s) = w :: Panond.splitBy Panond.isSpace s := by
  induction w with
  | nil => simp only [List.nil_append, Panond.splitBy]; rw [if_pos (by decide)]
  | cons c w ih =>
    simp only [List.cons_append, Panond.splitBy]
    rw [if_neg (by simp [hw c (by simp)]), ih (fun c hc => hw c (by simp [hc]))]

private theorem split_last {w : Text} (hw : ∀ c ∈ w, Panond.isSpace c = false) : Panond.splitBy Panond.isSpace w = [w] := by
  induction w with
  | nil => rfl
  | cons c w ih =>
    simp only [Panond.splitBy]
    rw [if_neg (by simp [hw c (by simp)]), ih (fun c hc => hw c (by simp [hc]))]

private theorem words_spaces (n : ℕ) (s : Text) : words (List.replicate n ' ' ++ s) = words s := by
  induction n with
  | zero => rfl
  | succ n ih =>
    rw [← ih, List.replicate_succ, List.cons_append]
    unfold words
    simp only [Panond.splitBy]
    rw [if_pos (by decide)]
    simp

private theorem words_spaced {w : Text} (hw : Word w) (rest : List (ℕ × Text)) (hr : ∀ p ∈ rest, Word p.2) :
    words (spaced w rest) = w :: rest.map Prod.snd := by
  induction rest generalizing w with
  | nil =>
    simp only [spaced, words, split_last (fun c hc => (hw.2 c hc).1)]
    simp [hw.1]
  | cons p rest ih =>
    obtain ⟨n, v⟩ := p
    have e : spaced w ((n, v) :: rest) = w ++ ' ' :: (List.replicate n ' ' ++ spaced v rest) := by
      simp [spaced, List.replicate_succ, List.append_assoc]
    have e2 : words (w ++ ' ' :: (List.replicate n ' ' ++ spaced v rest)) = w :: words (List.replicate n ' ' ++ spaced v rest) := by
      unfold words
      rw [split_word (fun c hc => (hw.2 c hc).1)]
      simp [hw.1]
    rw [e, e2, words_spaces, ih (hr (n, v) (by simp)) (fun p hp => hr p (by simp [hp]))]
    rfl

private def pad (c : Char) : Bool := c = ' ' || c = '[' || c = ']'

private theorem dropWhile_pads {s : Text} (hs : ∀ c ∈ s, pad c = true) (r : Text) : (s ++ r).dropWhile pad = r.dropWhile pad := by
  induction s with
  | nil => rfl
  | cons c s ih =>
    rw [List.cons_append, List.dropWhile_cons_of_pos (hs c (by simp)), ih (fun c hc => hs c (by simp [hc]))]

private theorem word_pad {w : Text} (hw : Word w) : ∀ c ∈ w, pad c = false := by
  intro c hc
  obtain ⟨h1, h2, h3⟩ := hw.2 c hc
  have : c ≠ ' ' := by rintro rfl; exact absurd h1 (by decide)
  simp [pad, h2, h3, this]

private theorem spaced_ends {w : Text} (hw : Word w) (rest : List (ℕ × Text)) (hr : ∀ p ∈ rest, Word p.2) :
    (∃ c s, spaced w rest = c :: s ∧ pad c = false) ∧ ∃ c s, spaced w rest = s ++ [c] ∧ pad c = false := by
  induction rest generalizing w with
  | nil =>
    refine ⟨?_, ?_⟩
    · obtain ⟨c, s, rfl⟩ := List.exists_cons_of_ne_nil hw.1
      exact ⟨c, s, rfl, word_pad hw c (by simp)⟩
    · obtain ⟨s, c, e⟩ := List.eq_nil_or_concat w |>.resolve_left hw.1
      exact ⟨c, s, by rw [spaced, e, List.concat_eq_append], word_pad hw c (by rw [e]; simp)⟩
  | cons p rest ih =>
    obtain ⟨n, v⟩ := p
    obtain ⟨-, c, s, e, hc⟩ := ih (hr (n, v) (by simp)) (fun p hp => hr p (by simp [hp]))
    refine ⟨?_, c, w ++ List.replicate (n + 1) ' ' ++ s, by simp [spaced, e], hc⟩
    obtain ⟨c, s, rfl⟩ := List.exists_cons_of_ne_nil hw.1
    exact ⟨c, _, rfl, word_pad hw c (by simp)⟩

private theorem strip_core {pre post : Text} (hpre : ∀ c ∈ pre, pad c = true) (hpost : ∀ c ∈ post, pad c = true) {w : Text} (hw : Word w)
    (rest : List (ℕ × Text)) (hr : ∀ p ∈ rest, Word p.2) : stripBrackets (pre ++ spaced w rest ++ post) = spaced w rest := by
  obtain ⟨⟨c, s, e, hc⟩, c', s', e', hc'⟩ := spaced_ends hw rest hr
  change (((pre ++ spaced w rest ++ post).dropWhile pad).reverse.dropWhile pad).reverse = _
  have h1 : (pre ++ spaced w rest ++ post).dropWhile pad = spaced w rest ++ post := by
    rw [List.append_assoc, dropWhile_pads hpre, e, List.cons_append, List.dropWhile_cons_of_neg (by simp [hc])]
  rw [h1, List.reverse_append, dropWhile_pads (fun c hc => hpost c (by simpa using hc)), e', List.reverse_append, List.reverse_singleton,
    List.singleton_append, List.dropWhile_cons_of_neg (by simp [hc']), List.reverse_cons, List.reverse_reverse]

/-- **C207c.** A field with numbers between brackets and spaces, such as `[ 0.01385  0.0152 -0.01872]`, becomes the list of these numbers. -/
theorem adr_parses (pyFloat : Text → Option Fl) {pre post w : Text} {rest : List (ℕ × Text)} {x : Fl} {xs : List Fl}
    (hpre : ∀ c ∈ pre, c = ' ' ∨ c = '[' ∨ c = ']') (hpost : ∀ c ∈ post, c = ' ' ∨ c = '[' ∨ c = ']') (hw : Word w)
    (hr : ∀ p ∈ rest, Word p.2) (hx : pyFloat w = some x) (hxs : List.Forall₂ (fun p y => pyFloat p.2 = some y) rest xs) :
    adrCell pyFloat (.str (pre ++ spaced w rest ++ post)) = .ok (.list (x :: xs)) := by
  unfold adrCell
  dsimp only
  rw [strip_core (fun c hc => by simpa [pad, or_assoc] using hpre c hc) (fun c hc => by simpa [pad, or_assoc] using hpost c hc) hw rest hr,
    words_spaced hw rest hr, collectE_of (ys := x :: xs)]
  refine .cons (by rw [hx]) ?_
  rw [List.forall₂_map_left_iff]
  exact hxs.imp fun p y h => by rw [h]

/-- **C207d.** A word that is no number - such as one ending in a comma - makes the whole library unreadable: ValueError. -/
theorem adr_comma (pyFloat : Text → Option Fl) {header : List Text} {u v : Line} {ls : List Line} {k : ℕ} {pre post w : Text}
    {rest : List (ℕ × Text)} {bad : Text}
    (hk : (header.map underscore).findIdx? (fun a => a = "ADRCoefficients".toList) = some k) {l : Line}
    (hls : ∀ l ∈ ls, ∃ s, l.cells[k]? = some (.str s)) (hl : l ∈ ls) (hcell : l.cells[k]? = some (.str (pre ++ spaced w rest ++ post)))
    (hpre : ∀ c ∈ pre, c = ' ' ∨ c = '[' ∨ c = ']') (hpost : ∀ c ∈ post, c = ' ' ∨ c = '[' ∨ c = ']') (hw : Word w)
    (hr : ∀ p ∈ rest, Word p.2) (hb : bad ∈ w :: rest.map Prod.snd) (hf : pyFloat bad = none) :
    parseRawSam pyFloat header (u :: v :: ls) = .error .valueError := by
  have hcell' : adrCell pyFloat (.str (pre ++ spaced w rest ++ post)) = .error .valueError := by
    unfold adrCell
    dsimp only
    rw [strip_core (fun c hc => by simpa [pad, or_assoc] using hpre c hc) (fun c hc => by simpa [pad, or_assoc] using hpost c hc) hw rest hr,
      words_spaced hw rest hr, collectE_error (e := .valueError) ?_ hb (by rw [hf])]
    intro x e' he
    cases hx : pyFloat x with
    | none => rw [hx] at he; exact (Except.error.inj he).symm
    | some y => rw [hx] at he; simp at he
  have herr : ∀ s e', adrCell pyFloat (.str s) = .error e' → e' = .valueError := by
    intro s e' he
    unfold adrCell at he
    dsimp only at he
    split at he
    · simp at he
    · rename_i e hc
      rw [← Except.error.inj he]
      refine collectE_errs ?_ hc
      intro x e'' hx
      split at hx
      · simp at hx
      · exact (Except.error.inj hx).symm
  unfold parseRawSam
  dsimp only
  rw [hk]
  dsimp only
  rw [show (u :: v :: ls).drop 2 = ls from rfl]
  have : collectE (adrColumn pyFloat k) (ls.map Line.cells) = .error .valueError := by
    have hmem : l.cells ∈ ls.map Line.cells := List.mem_map_of_mem hl
    have hcol : adrColumn pyFloat k l.cells = .error .valueError := by unfold adrColumn; rw [hcell]; dsimp only; rw [hcell']
    clear hcell hcell'
    have hgen : ∀ c ∈ ls.map Line.cells, ∀ e', adrColumn pyFloat k c = .error e' → e' = .valueError := by
      intro c hc e' he
      obtain ⟨l', hl', rfl⟩ := List.mem_map.1 hc
      obtain ⟨s, hs⟩ := hls l' hl'
      unfold adrColumn at he
      rw [hs] at he
      dsimp only at he
      cases hq : adrCell pyFloat (.str s) with
      | ok c => rw [hq] at he; simp at he
      | error e => rw [hq] at he; rw [← Except.error.inj he]; exact herr s e hq
    generalize ls.map Line.cells = cs at hmem hgen
    induction cs with
    | nil => simp at hmem
    | cons c cs ih =>
      unfold collectE
      cases hc : adrColumn pyFloat k c with
      | error e' => dsimp only; rw [hgen c (by simp) _ hc]
      | ok v =>
        dsimp only
        have : l.cells ∈ cs := by
          rcases List.mem_cons.1 hmem with h | h
          · rw [← h, hcol] at hc; simp at hc
          · exact h
        rw [ih this fun c hc => hgen c (by simp [hc])]
  rw [this]

/-! ### Concrete cases -/

/-- A toy `float`: one digit. -/
def digit : Text → Option Fl
  | ['1'] => some 1
  | ['2'] => some 2
  | _ => none

private theorem w1 : Word ['1'] := ⟨by simp, by decide⟩
private theorem w2 : Word ['2'] := ⟨by simp, by decide⟩

example : adrCell digit (.str "[ 1   2 ]".toList) = .ok (.list [1, 2]) :=
  adr_parses digit (pre := "[ ".toList) (post := " ]".toList) (w := ['1']) (rest := [(2, ['2'])]) (by decide) (by decide) w1
    (by simpa using w2) rfl (.cons rfl .nil)

example : parseRawSam digit ["Paco".toList, "ADRCoefficients".toList]
    [⟨"Units".toList, []⟩, ⟨"[0]".toList, []⟩, ⟨"X 1".toList, [.num 1, .str " 1, 2".toList]⟩] = .error .valueError :=
  adr_comma digit (k := 1) (l := ⟨"X 1".toList, [.num 1, .str " 1, 2".toList]⟩) (pre := [' ']) (post := []) (w := ['1', ','])
    (rest := [(0, ['2'])]) (bad := ['1', ',']) (by decide) (by simp) (by simp) rfl (by decide) (by decide) ⟨by simp, by decide⟩
    (by simpa using w2) (by simp) rfl

example : ∃ t, parseRawSam digit ["Pac max".toList] [⟨"Units".toList, []⟩, ⟨"[0]".toList, []⟩, ⟨"X-1".toList, [.num 1]⟩] = .ok t ∧
    t.products = ["X_1".toList] ∧ t.attributes = ["Pac_max".toList] := by
  have h : ∃ t, parseRawSam digit ["Pac max".toList] [⟨"Units".toList, []⟩, ⟨"[0]".toList, []⟩, ⟨"X-1".toList, [.num 1]⟩] = .ok t := by
    unfold parseRawSam
    have : (["Pac max".toList].map underscore).findIdx? (fun a => decide (a = "ADRCoefficients".toList)) = none := by decide
    simp only [this]
    exact ⟨_, rfl⟩
  obtain ⟨t, ht⟩ := h
  obtain ⟨h1, h2, -⟩ := sam_cells ht
  exact ⟨t, ht, by rw [h2]; decide, by rw [h1]; decide⟩

end Pvlib.Props.SamTable
end
