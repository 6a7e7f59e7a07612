import Verif.Model.Panond
import Mathlib.Tactic.Ring

/-! # Property C155: PVsyst module and inverter files -/

namespace Pvlib.Props.Panond
open Pvlib Pvlib.Panond

variable {F : Type} (py : Numbers F)

/-! ### Specification -/

/-- The content of a `.pan` / `.ond` file: a sequence of items; an item is a field, or a nested object with its items.  Fields and
objects may have a value text after an equals sign. -/
inductive Items where
  | nil
  | field (key : Text) (value : Option Text) (rest : Items)
  | object (key : Text) (value : Option Text) (children rest : Items)

/-- A key or a value of the file. -/
def NoBreak (s : Text) : Prop := ∀ c ∈ s, c ≠ '=' ∧ isBreak c = false

/-- Keys are not empty, not surrounded by white space, and contain neither '=' nor a line break. -/
def KeyOk (k : Text) : Prop := k ≠ [] ∧ strip k = k ∧ NoBreak k

/-- Well formed content: proper keys, values without '=' or line breaks, no object without items. -/
def Items.Ok : Items → Prop
  | .nil => True
  | .field k v rest => KeyOk k ∧ (∀ x ∈ v, NoBreak x) ∧ rest.Ok
  | .object k v children rest => KeyOk k ∧ (∀ x ∈ v, NoBreak x) ∧ children ≠ .nil ∧ children.Ok ∧ rest.Ok

/-- A line of the file, indented two blanks per level. -/
def renderLine (d : ℕ) (k : Text) (v : Option Text) : Text :=
  List.replicate (2 * d) ' ' ++ k ++ (match v with | none => [] | some x => '=' :: x)

/-- The lines of the file. -/
def Items.lines (d : ℕ) : Items → List Text
  | .nil => []
  | .field k v rest => renderLine d k v :: rest.lines d
  | .object k v children rest => renderLine d k v :: (children.lines (d + 1) ++ rest.lines d)

/-- Nested dictionaries, without references. -/
inductive Tree (F : Type) where
  | value (v : Option (Value F))
  | dict (entries : List (Text × Tree F))

/-- The value of a value text. -/
def valueOf (v : Option Text) : Option (Value F) := v.map fun x => elementType py (strip x)

/-- What the items add to a dictionary: fields their value, objects a dictionary that starts with the object's own value under its
own key; a repeated key replaces. -/
def Items.into : Items → List (Text × Tree F) → List (Text × Tree F)
  | .nil, d => d
  | .field k v rest, d => rest.into (dictSet d k (.value (valueOf py v)))
  | .object k v children rest, d => rest.into (dictSet d k (.dict (children.into [(k, .value (valueOf py v))])))

mutual
/-- The entry, in the heap, is the tree, all its dictionaries being numbered from `lo` to below `hi`. -/
inductive Is (h : List (List (Text × Entry F))) (lo hi : ℕ) : Entry F → Tree F → Prop
  | value (v) : Is h lo hi (.value v) (.value v)
  | dict {r : ℕ} {d l} (hr : h[r]? = some d) (h1 : lo ≤ r) (h2 : r < hi) (hd : Are h lo hi d l) : Is h lo hi (.dict r) (.dict l)
/-- The same for the entries of a dictionary. -/
inductive Are (h : List (List (Text × Entry F))) (lo hi : ℕ) : List (Text × Entry F) → List (Text × Tree F) → Prop
  | nil : Are h lo hi [] []
  | cons {k e t d l} (he : Is h lo hi e t) (hd : Are h lo hi d l) : Are h lo hi ((k, e) :: d) ((k, t) :: l)
end

/-! ### Text -/

private theorem splitBy_ne (p : Char → Bool) (s : Text) : splitBy p s ≠ [] := by
  cases s with
  | nil => simp [splitBy]
  | cons x xs =>
    unfold splitBy
    by_cases h : p x
    · simp [h]
    · simp only [h]
      cases splitBy p xs <;> simp

theorem splitBy_none (p : Char → Bool) (s : Text) (h : ∀ c ∈ s, p c = false) : splitBy p s = [s] := by
  induction s with
  | nil => rfl
  | cons x xs ih =>
    have hx := h x (by simp)
    rw [splitBy, ih (fun c hc => h c (by simp [hc]))]
    simp [hx]

theorem splitBy_append (p : Char → Bool) (s t : Text) (c : Char) (h : ∀ c ∈ s, p c = false) (hc : p c = true) :
    splitBy p (s ++ c :: t) = s :: splitBy p t := by
  induction s with
  | nil => simp [splitBy, hc]
  | cons x xs ih =>
    have hx := h x (by simp)
    rw [List.cons_append, splitBy, ih (fun c hc => h c (by simp [hc]))]
    simp [hx]

private theorem space_isSpace : isSpace ' ' = true := by decide

private theorem strip_blanks (n : ℕ) (s : Text) : strip (List.replicate n ' ' ++ s) = strip s := by
  unfold strip
  congr 3
  induction n with
  | zero => rfl
  | succ n ih => rw [List.replicate_succ, List.cons_append, List.dropWhile_cons_of_pos space_isSpace, ih]

private theorem head_not_space {k : Text} (h : KeyOk k) : ∃ c cs, k = c :: cs ∧ isSpace c = false := by
  obtain ⟨hne, hs, -⟩ := h
  cases k with
  | nil => exact absurd rfl hne
  | cons c cs =>
    refine ⟨c, cs, rfl, ?_⟩
    by_contra hc
    have hc' : isSpace c = true := by simpa using hc
    have hlen : (strip (c :: cs)).length ≤ cs.length := by
      unfold strip
      rw [List.length_reverse, List.dropWhile_cons_of_pos hc']
      refine (List.dropWhile_sublist _).length_le.trans ?_
      rw [List.length_reverse]
      exact (List.dropWhile_sublist _).length_le
    rw [hs] at hlen
    simp at hlen

private theorem level_line (d : ℕ) {k : Text} (v : Option Text) (h : KeyOk k) : level (renderLine d k v) = d := by
  obtain ⟨c, cs, rfl, hc⟩ := head_not_space h
  have hne : c ≠ ' ' := by rintro rfl; rw [space_isSpace] at hc; exact absurd hc (by simp)
  unfold level renderLine
  generalize (match v with | none => [] | some x => '=' :: x) = tail
  have e : (List.replicate (2 * d) ' ' ++ c :: cs ++ tail).dropWhile (· = ' ') = c :: cs ++ tail := by
    induction 2 * d with
    | zero => simp [hne]
    | succ n ih =>
      rw [List.replicate_succ, List.cons_append, List.cons_append, List.dropWhile_cons_of_pos (by simp)]
      exact ih
  rw [e]
  simp only [List.length_append, List.length_replicate]
  omega

private theorem keyValue_line (d : ℕ) {k : Text} {v : Option Text} (h : KeyOk k) (hv : ∀ x ∈ v, NoBreak x) :
    keyValue py (renderLine d k v) = (k, valueOf py v) := by
  have hk : ∀ c ∈ List.replicate (2 * d) ' ' ++ k, (decide (c = '=')) = false := by
    intro c hc
    rcases List.mem_append.mp hc with hc | hc
    · rw [List.eq_of_mem_replicate hc]; decide
    · simpa using (h.2.2 c hc).1
  unfold keyValue splitOn renderLine
  cases v with
  | none =>
    rw [List.append_nil, splitBy_none _ _ hk]
    dsimp only
    rw [strip_blanks, h.2.1]; rfl
  | some x =>
    dsimp only
    rw [splitBy_append _ _ _ _ hk (by simp), splitBy_none _ x (fun c hc => by simpa using (hv x rfl c hc).1)]
    dsimp only
    rw [strip_blanks, h.2.1]; rfl

private theorem line_ne (d : ℕ) {k : Text} (v : Option Text) (h : KeyOk k) : renderLine d k v ≠ [] := by
  unfold renderLine
  have := h.1
  simp [this]

/-! ### References -/

private theorem is_mono {h h' : List (List (Text × Entry F))} {lo hi lo' hi' : ℕ} (hlo : lo' ≤ lo) (hhi : hi ≤ hi')
    (heq : ∀ q, lo ≤ q → q < hi → h'[q]? = h[q]?) {e : Entry F} {t : Tree F} (H : Is h lo hi e t) : Is h' lo' hi' e t := by
  refine Is.rec (motive_1 := fun e t _ => Is h' lo' hi' e t) (motive_2 := fun d l _ => Are h' lo' hi' d l) ?_ ?_ ?_ ?_ H
  · exact fun v => .value v
  · intro r d l hr h1 h2 _ ih
    exact .dict (by rw [heq r h1 h2, hr]) (hlo.trans h1) (lt_of_lt_of_le h2 hhi) ih
  · exact .nil
  · exact fun _ _ i1 i2 => .cons i1 i2

private theorem are_mono {h h' : List (List (Text × Entry F))} {lo hi lo' hi' : ℕ} (hlo : lo' ≤ lo) (hhi : hi ≤ hi')
    (heq : ∀ q, lo ≤ q → q < hi → h'[q]? = h[q]?) {d : List (Text × Entry F)} {l : List (Text × Tree F)} (H : Are h lo hi d l) :
    Are h' lo' hi' d l := by
  induction d generalizing l with
  | nil => cases H; exact .nil
  | cons x xs ih => cases H with | cons he hd => exact .cons (is_mono hlo hhi heq he) (ih hd)

private theorem are_set {h : List (List (Text × Entry F))} {lo hi : ℕ} {d : List (Text × Entry F)} {l : List (Text × Tree F)}
    (H : Are h lo hi d l) (k : Text) {e : Entry F} {t : Tree F} (he : Is h lo hi e t) : Are h lo hi (dictSet d k e) (dictSet l k t) := by
  induction d generalizing l with
  | nil => cases H; exact .cons he .nil
  | cons x xs ih =>
    cases H with
    | @cons k' e' t' d' l' he' hd =>
      unfold dictSet
      by_cases hk : k' = k
      · simp only [hk, if_true]; exact .cons he hd
      · simp only [hk, if_false]; exact .cons he' (ih hd)

/-! ### The loop -/

private theorem head_level (d : ℕ) (f : Items) (h : f.Ok) {nxt : Text} (hn : level nxt ≤ d) (rest : List Text) :
    ∃ a l, f.lines d ++ nxt :: rest = a :: l ∧ level a ≤ d := by
  cases f with
  | nil => exact ⟨nxt, rest, rfl, hn⟩
  | field k v r => exact ⟨renderLine d k v, _, rfl, (level_line d v h.1).le⟩
  | object k v c r => exact ⟨renderLine d k v, _, rfl, (level_line d v h.1).le⟩

private theorem child_level (d : ℕ) (f : Items) (h : f.Ok) (hf : f ≠ .nil) (rest : List Text) :
    ∃ a l, f.lines d ++ rest = a :: l ∧ level a = d := by
  cases f with
  | nil => exact absurd rfl hf
  | field k v r => exact ⟨renderLine d k v, _, rfl, level_line d v h.1⟩
  | object k v c r => exact ⟨renderLine d k v, _, rfl, level_line d v h.1⟩

private theorem getElem?_of_take {L L' : List ℕ} {d r : ℕ} (h : L'.take (d + 1) = L.take (d + 1)) (hr : L[d]? = some r) :
    L'[d]? = some r := by
  have h1 : (L'.take (d + 1))[d]? = L'[d]? := by rw [List.getElem?_take]; simp
  have h2 : (L.take (d + 1))[d]? = L[d]? := by rw [List.getElem?_take]; simp
  rw [← h1, h, h2, hr]

private theorem block (f : Items) : ∀ (d : ℕ) (L : List ℕ) (h : List (List (Text × Entry F))) (r : ℕ) (D : List (Text × Entry F))
    (l : List (Text × Tree F)) (lo : ℕ) (nxt : Text) (rest : List Text), f.Ok → L[d]? = some r → r < lo → lo ≤ h.length →
    h[r]? = some D → Are h lo h.length D l → level nxt ≤ d →
    ∃ (L' : List ℕ) (h' : List (List (Text × Entry F))), run py (f.lines d ++ nxt :: rest) ⟨h, L⟩ = run py (nxt :: rest) ⟨h', L'⟩ ∧
      L'.take (d + 1) = L.take (d + 1) ∧ h.length ≤ h'.length ∧ (∀ q, q < h.length → q ≠ r → h'[q]? = h[q]?) ∧
      ∃ D', h'[r]? = some D' ∧ Are h' lo h'.length D' (f.into py l) := by
  induction f with
  | nil =>
    intro d L h r D l lo nxt rest _ _ _ _ hD hA _
    exact ⟨L, h, rfl, rfl, le_refl _, fun _ _ _ => rfl, D, hD, hA⟩
  | field k v f ih =>
    intro d L h r D l lo nxt rest hok hL hr hlo hD hA hn
    obtain ⟨hk, hv, hf⟩ := hok
    obtain ⟨a, m, hm, ha⟩ := head_level d f hf hn rest
    set h1 := h.modify r (fun d => dictSet d k (.value (valueOf py v))) with hh1
    have hlen : h1.length = h.length := by simp [hh1]
    have hst : step py (renderLine d k v) a ⟨h, L⟩ = .ok ⟨h1, L⟩ := by
      unfold step
      rw [if_neg (line_ne d v hk)]
      dsimp only
      rw [level_line d v hk, hL, keyValue_line py d hk hv]
      dsimp only
      rw [if_neg (by omega)]
    have hq : ∀ q, q ≠ r → h1[q]? = h[q]? := fun q hq => by rw [hh1, List.getElem?_modify]; simp [Ne.symm hq]
    have hD1 : h1[r]? = some (dictSet D k (.value (valueOf py v))) := by rw [hh1, List.getElem?_modify]; simp [hD]
    obtain ⟨L', h', e1, e2, e3, e4, e5⟩ := ih d L h1 r _ (dictSet l k (.value (valueOf py v))) lo nxt rest hf hL hr (by omega) hD1
      (are_set (are_mono (le_refl lo) (by omega) (fun q h1 _ => hq q (by omega)) hA) k (.value _)) hn
    refine ⟨L', h', ?_, e2, by omega, fun q h1 h2 => by rw [e4 q (by omega) h2, hq q h2], e5⟩
    rw [← e1]
    simp only [Items.lines, List.cons_append]
    rw [hm, run, hst]
  | object k v c f ihc ihf =>
    intro d L h r D l lo nxt rest hok hL hr hlo hD hA hn
    obtain ⟨hk, hv, hc0, hc, hf⟩ := hok
    obtain ⟨a, m, hm, ha⟩ := child_level (d + 1) c hc hc0 (f.lines d ++ nxt :: rest)
    obtain ⟨b, mb, hb, hbl⟩ := head_level d f hf hn rest
    have hdL : d < L.length := by
      by_contra hcon
      rw [List.getElem?_eq_none (by omega)] at hL
      exact absurd hL (by simp)
    set n := h.length with hnn
    set h1 := h.modify r (fun d => dictSet d k (.dict n)) ++ [[(k, Entry.value (valueOf py v))]] with hh1
    have hlen : h1.length = n + 1 := by simp [hh1, hnn]
    have hst : step py (renderLine d k v) a ⟨h, L⟩ = .ok ⟨h1, L.take (d + 1) ++ [n]⟩ := by
      unfold step
      rw [if_neg (line_ne d v hk)]
      dsimp only
      rw [level_line d v hk, hL, keyValue_line py d hk hv]
      dsimp only
      rw [if_pos (by omega)]
      rfl
    have hq : ∀ q, q < n → q ≠ r → h1[q]? = h[q]? := fun q hq hr => by
      rw [hh1, List.getElem?_append_left (by simpa using hq), List.getElem?_modify]; simp [Ne.symm hr]
    have hD1 : h1[r]? = some (dictSet D k (.dict n)) := by
      rw [hh1, List.getElem?_append_left (by rw [List.length_modify]; omega), List.getElem?_modify]; simp [hD]
    have hN : h1[n]? = some [(k, Entry.value (valueOf py v))] := by
      rw [hh1, List.getElem?_append_right (by simp [hnn])]; simp [hnn]
    have hL1 : (L.take (d + 1) ++ [n])[d + 1]? = some n := by
      rw [List.getElem?_append_right (by simp)]
      simp [Nat.min_eq_left (by omega : d + 1 ≤ L.length)]
    have hL1' : (L.take (d + 1) ++ [n]).take (d + 1) = L.take (d + 1) := by
      rw [List.take_append_of_le_length (by simp; omega), List.take_take]; simp
    obtain ⟨L2, h2, e1, e2, e3, e4, D2, e5, e6⟩ := ihc (d + 1) (L.take (d + 1) ++ [n]) h1 n _ [(k, Tree.value (valueOf py v))] (n + 1)
      b mb hc hL1 (by omega) (by omega) hN (.cons (.value _) .nil) (by omega)
    have t2 : L2.take (d + 1) = L.take (d + 1) := by
      have := congrArg (List.take (d + 1)) e2
      rw [List.take_take, List.take_take, Nat.min_eq_left (by omega)] at this
      rw [this, hL1']
    have agree : ∀ q, q < n → q ≠ r → h2[q]? = h[q]? := fun q h1 h2 => by rw [e4 q (by omega) (by omega), hq q h1 h2]
    have hr2 : h2[r]? = some (dictSet D k (.dict n)) := by rw [e4 r (by omega) (by omega), hD1]
    have hA2 : Are h2 lo h2.length (dictSet D k (.dict n)) (dictSet l k (.dict (c.into py [(k, .value (valueOf py v))]))) := by
      refine are_set (are_mono (le_refl lo) (by omega) (fun q h1 h2 => agree q h2 (by omega)) hA) k ?_
      exact .dict e5 (by omega) (by omega) (are_mono (by omega) (le_refl _) (fun _ _ _ => rfl) e6)
    obtain ⟨L3, h3, f1, f2, f3, f4, f5⟩ := ihf d L2 h2 r _ _ lo nxt rest hf (getElem?_of_take t2 hL) hr (by omega) hr2 hA2 hn
    refine ⟨L3, h3, ?_, by rw [f2, t2], by omega, fun q h1 h2 => by rw [f4 q (by omega) h2, agree q h1 h2], f5⟩
    rw [← f1, hb, ← e1]
    simp only [Items.lines, List.cons_append, List.append_assoc]
    rw [← hb, hm, run, hst]

/-! ### The property -/

/-- The text of a file with these lines; the last one may lack its newline. -/
def fileText (lines : List Text) (last : Text) (newline : Bool) : Text :=
  lines.flatMap (· ++ ['\n']) ++ last ++ (if newline then ['\n'] else [])

private theorem splitBy_lines (lines : List Text) (h : ∀ l ∈ lines, ∀ c ∈ l, isBreak c = false) (t : Text) :
    splitBy isBreak (lines.flatMap (· ++ ['\n']) ++ t) = lines ++ splitBy isBreak t := by
  induction lines with
  | nil => rfl
  | cons l ls ih =>
    have e : (l :: ls).flatMap (· ++ ['\n']) ++ t = l ++ '\n' :: (ls.flatMap (· ++ ['\n']) ++ t) := by simp
    rw [e, splitBy_append _ _ _ _ (h l (by simp)) (by decide), ih (fun l hl => h l (by simp [hl]))]
    rfl

private theorem splitlines_file (lines : List Text) (last : Text) (newline : Bool) (h : ∀ l ∈ lines, ∀ c ∈ l, isBreak c = false)
    (hl : ∀ c ∈ last, isBreak c = false) (hne : last ≠ []) : splitlines (fileText lines last newline) = lines ++ [last] := by
  unfold splitlines fileText
  dsimp only
  rw [List.append_assoc, splitBy_lines lines h]
  cases newline with
  | false =>
    have e : last ++ (if false = true then ['\n'] else []) = last := by simp
    rw [e, splitBy_none _ _ hl, if_neg (by simp [hne])]
  | true =>
    rw [if_pos rfl, splitBy_append _ _ _ _ hl (by decide)]
    simp [splitBy]

private theorem line_clean (d : ℕ) {k : Text} {v : Option Text} (h : KeyOk k) (hv : ∀ x ∈ v, NoBreak x) :
    ∀ c ∈ renderLine d k v, isBreak c = false := by
  intro c hc
  unfold renderLine at hc
  rcases List.mem_append.mp hc with hc | hc
  · rcases List.mem_append.mp hc with hc | hc
    · rw [List.eq_of_mem_replicate hc]; decide
    · exact (h.2.2 c hc).2
  · cases v with
    | none => exact absurd hc (by simp)
    | some x =>
      rcases List.mem_cons.mp hc with rfl | hc
      · decide
      · exact (hv x rfl c hc).2

private theorem lines_clean (f : Items) : ∀ d, f.Ok → ∀ l ∈ f.lines d, ∀ c ∈ l, isBreak c = false := by
  induction f with
  | nil => intro d _ l hl; exact absurd hl (by simp [Items.lines])
  | field k v f ih =>
    intro d ⟨hk, hv, hf⟩ l hl
    rcases List.mem_cons.mp hl with rfl | hl
    · exact line_clean d hk hv
    · exact ih d hf l hl
  | object k v c f ihc ihf =>
    intro d ⟨hk, hv, _, hc, hf⟩ l hl
    rcases List.mem_cons.mp hl with rfl | hl
    · exact line_clean d hk hv
    · rcases List.mem_append.mp hl with hl | hl
      · exact ihc _ hc l hl
      · exact ihf d hf l hl

/-- **C155 (every file).** However many items it has and however deep they nest, a well formed file (closed by one last, unindented,
line) is read, without an exception, into the nested dictionaries of its items. -/
theorem reads (f : Items) (h : f.Ok) (last : Text) (hl : ∀ c ∈ last, isBreak c = false) (hne : last ≠ []) (h0 : level last = 0)
    (newline : Bool) :
    ∃ heap D, parse py (fileText (f.lines 0) last newline) = .ok heap ∧ heap[0]? = some D ∧
      Are heap 1 heap.length D (f.into py []) := by
  unfold parse
  rw [splitlines_file _ _ _ (lines_clean f 0 h) hl hne]
  obtain ⟨L', h', e1, -, -, -, D', e5, e6⟩ := block py f 0 [0] [[]] 0 [] [] 1 last [] h rfl (by omega) (by simp) rfl .nil (by omega)
  refine ⟨h', D', ?_, e5, e6⟩
  rw [e1]
  rfl

/-- **C155 (meaning).** The tree an entry stands for is determined by the heap. -/
theorem unique {h : List (List (Text × Entry F))} {lo hi lo' hi' : ℕ} {e : Entry F} {t t' : Tree F} (H : Is h lo hi e t)
    (H' : Is h lo' hi' e t') : t = t' := by
  revert t'
  refine Is.rec (motive_1 := fun e t _ => ∀ {t'}, Is h lo' hi' e t' → t = t')
    (motive_2 := fun d l _ => ∀ {l'}, Are h lo' hi' d l' → l = l') ?_ ?_ ?_ ?_ H
  · intro v t' H'; cases H'; rfl
  · intro r d l hr _ _ _ ih t' H'
    cases H' with
    | dict hr' _ _ hd' =>
      rw [hr] at hr'
      obtain rfl := Option.some.inj hr'
      rw [ih hd']
  · intro l' H'; cases H'; rfl
  · intro k e t d l _ _ i1 i2 l' H'
    cases H' with
    | cons he hd => rw [i1 he, i2 hd]

/-- **C155 (last line).** Of the last line only the indentation matters: its key and value are never read. -/
theorem last_line_ignored (lines : List Text) (x y : Text) (h : level x = level y) (s : State F) :
    run py (lines ++ [x]) s = run py (lines ++ [y]) s := by
  induction lines generalizing s with
  | nil => rfl
  | cons a l ih =>
    cases l with
    | nil =>
      have : step py a x s = step py a y s := by unfold step; simp only [h]
      simp only [List.cons_append, List.nil_append, run, this]
    | cons b l =>
      simp only [List.cons_append, run]
      cases step py a b s with
      | error e => rfl
      | ok s' => exact ih s'

/-- **C155 (second equals sign).** What follows a second equals sign is dropped. -/
theorem second_equals (k v w : Text) (hk : '=' ∉ k) (hv : '=' ∉ v) :
    keyValue py (k ++ '=' :: (v ++ '=' :: w)) = keyValue py (k ++ '=' :: v) := by
  have hk' : ∀ c ∈ k, (decide (c = '=')) = false := fun c hc => by
    simp only [decide_eq_false_iff_not]; rintro rfl; exact hk hc
  have hv' : ∀ c ∈ v, (decide (c = '=')) = false := fun c hc => by
    simp only [decide_eq_false_iff_not]; rintro rfl; exact hv hc
  unfold keyValue splitOn
  rw [splitBy_append _ k _ _ hk' (by simp), splitBy_append _ k _ _ hk' (by simp), splitBy_append _ v _ _ hv' (by simp),
    splitBy_none _ v hv']

/-- **C155 (values).** A text without a comma is one value: a number if it reads as one (a float if it contains a point, otherwise an
integer), and itself if not.  A text with commas is the list of the values between them. -/
theorem values (a : Text) (rest : List Text) (h : ∀ x ∈ a :: rest, ',' ∉ x) :
    (elementType py a = .scalar (numType py a)) ∧
    (rest ≠ [] → elementType py (a ++ rest.flatMap fun x => ',' :: x) = .list ((a :: rest).map (numType py))) ∧
    (∀ x y, '.' ∈ x → py.float x = some y → numType py x = .float y) ∧ (∀ x, '.' ∈ x → py.float x = none → numType py x = .str x) ∧
    (∀ x n, '.' ∉ x → py.int x = some n → numType py x = .int n) ∧ (∀ x, '.' ∉ x → py.int x = none → numType py x = .str x) := by
  refine ⟨?_, ?_, ?_, ?_, ?_, ?_⟩
  · unfold elementType; rw [if_neg (h a (by simp))]
  · intro hr
    have hs : ∀ (a : Text) (rest : List Text), (∀ x ∈ a :: rest, ',' ∉ x) →
        splitOn ',' (a ++ rest.flatMap fun x => ',' :: x) = a :: rest := by
      intro a rest h
      have ha : ∀ c ∈ a, (decide (c = ',')) = false := fun c hc => by
        simp only [decide_eq_false_iff_not]; rintro rfl; exact h a (by simp) hc
      induction rest generalizing a with
      | nil => rw [List.flatMap_nil, List.append_nil]; exact splitBy_none _ a ha
      | cons b l ih =>
        rw [List.flatMap_cons, List.cons_append, splitOn, splitBy_append _ a _ _ ha (by simp)]
        congr 1
        refine ih b (fun x hx => h x (List.mem_cons_of_mem _ hx)) (fun c hc => ?_)
        simp only [decide_eq_false_iff_not]; rintro rfl; exact h b (by simp) hc
    unfold elementType
    rw [if_pos, hs a rest h]
    cases rest with
    | nil => exact absurd rfl hr
    | cons b l => simp
  · intro x y hx hy; unfold numType; rw [if_pos hx, hy]
  · intro x hx hy; unfold numType; rw [if_pos hx, hy]
  · intro x n hx hy; unfold numType; rw [if_neg hx, hy]
  · intro x hx hy; unfold numType; rw [if_neg hx, hy]

example := (values py "0.1".toList ["0.2".toList, "Al".toList] (by decide)).2.1 (by decide)

/-- **C155 (blank lines).** A blank line between an object and its first item makes the parser raise IndexError ... -/
theorem blank_line_raises : parse py "A=1\n\n  B=2\nEnd\n".toList = .error .indexError := rfl

/-- ... or, if an earlier object left its level open, silently put the item into that earlier object: here `Y` goes to `A`. -/
theorem blank_line_misfiles : parse py "A\n  X\nB\n\n  Y\nEnd\n".toList =
    .ok [[(['A'], .dict 1), (['B'], .value none)], [(['A'], .value none), (['X'], .value none), (['Y'], .value none)]] := rfl

/-- A module file with a nested object. -/
def sample : Items :=
  .object "PVObject_".toList (some "pvModule".toList)
    (.field "NCelS".toList (some "72".toList) (.object "Commercial".toList none (.field "Width".toList (some "0.999".toList) .nil) .nil))
    .nil

example : sample.Ok := by
  refine ⟨?_, ?_, ?_, ⟨?_, ?_, ?_, ?_, ?_, ⟨?_, ?_, trivial⟩, trivial⟩, trivial⟩
  all_goals first
    | (unfold KeyOk NoBreak; decide)
    | (intro x hx; obtain rfl := Option.some.inj hx; unfold NoBreak; decide)
    | (intro x hx; cases hx)
    | (intro h; cases h)

end Pvlib.Props.Panond
