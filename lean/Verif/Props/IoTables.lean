import Verif.Model.IoTables
import Verif.Base.Lemmas
import Mathlib.Tactic.Linarith

/-! # Properties C160-C163: SRML tables, missing values, downloads of several files, BSRN records -/

namespace Pvlib.Props.IoTables
open Pvlib Pvlib.Calendar Pvlib.Panond Pvlib.IoTables

/-! ## C160: SRML columns and quality flags -/

/-- A measured quantity of an SRML file and the flags in the column after it. -/
structure Pair where
  (element flag : Text)
  (values flags : List Fl)

/-- The columns of the file: every variable is followed by its flags. -/
def columnsOf (ps : List Pair) : List Column := ps.flatMap fun p => [⟨p.element, p.values⟩, ⟨p.flag, p.flags⟩]

open Classical in
/-- A value is missing if its flag is 99. -/
noncomputable def cleaned (p : Pair) : List Fl := List.zipWith (fun x f => if f = (99 : Fl) then Fl.nan else x) p.values p.flags

/-- SRML element numbers: digits, not starting with 0. -/
def ElementNumber (v : Text) : Prop := v ≠ [] ∧ v.head? ≠ some '0' ∧ ∀ c ∈ v, c.isDigit = true

/-- Names of flag columns: '0', '0.1', '0.2', ... -/
def FlagLabel (f : Text) : Prop := f.head? = some '0'

theorem lookup_mem {d : List (String × String)} {k v : Text} (h : lookup d k = some v) : ∃ p ∈ d, p.1.toList = k ∧ p.2.toList = v := by
  induction d with
  | nil => simp [lookup] at h
  | cons p d ih =>
    obtain ⟨a, b⟩ := p
    unfold lookup at h
    split at h
    · rename_i hk
      exact ⟨(a, b), by simp, hk, Option.some.inj h⟩
    · obtain ⟨p, hp, h1⟩ := ih h
      exact ⟨p, by simp [hp], h1⟩

private theorem map_letters : ∀ p ∈ srmlMap, (p.2.toList.head?.all fun c => !c.isDigit) = true ∧ p.2.toList ≠ [] ∧ p.1.toList.head? ≠ some '7' := by
  decide +kernel

private theorem map_prefix : ∀ p ∈ srmlMap, ∀ q ∈ srmlMap, (p.2.toList ++ ['_']) <+: (q.2.toList ++ ['_']) → p = q := by
  decide +kernel

private theorem no_seven {k v : Text} (h : k.head? = some '7') : lookup srmlMap k ≠ some v := by
  intro hl
  obtain ⟨p, hp, h1, -⟩ := lookup_mem hl
  exact (map_letters p hp).2.2 (h1 ▸ h)

/-- What the mapping of names does. -/
private theorem map_cases (v : Text) : mapColumns v = v ∨
    ∃ p ∈ srmlMap, p.1.toList = v.take 3 ∧ mapColumns v = p.2.toList ++ '_' :: v.drop 3 := by
  unfold mapColumns
  split
  · rename_i h7
    cases hl : lookup srmlMap v with
    | none => left; rfl
    | some w => exact absurd hl (no_seven h7)
  · cases hl : lookup srmlMap (v.take 3) with
    | none => left; rfl
    | some w =>
      right
      obtain ⟨p, hp, h1, h2⟩ := lookup_mem hl
      exact ⟨p, hp, h1, by rw [← h2]⟩

private theorem digit_ne_letter {p : String × String} (hp : p ∈ srmlMap) {v : Text} (hv : ElementNumber v) (rest : Text) :
    p.2.toList ++ rest ≠ v := by
  intro h
  obtain ⟨hne, -, hd⟩ := hv
  obtain ⟨h1, h2, -⟩ := map_letters p hp
  cases hl : p.2.toList with
  | nil => exact h2 hl
  | cons c cs =>
    rw [hl] at h h1
    simp only [List.head?_cons, Option.all_some, Bool.not_eq_true'] at h1
    have := hd c (by rw [← h]; simp)
    rw [this] at h1
    exact absurd h1 (by decide)

/-- Mapping names never makes two columns of the same name. -/
theorem names_distinct {v w : Text} (hv : ElementNumber v) (hw : ElementNumber w) (h : mapColumns v = mapColumns w) : v = w := by
  rcases map_cases v with ev | ⟨p, hp, hp1, ev⟩ <;> rcases map_cases w with ew | ⟨q, hq, hq1, ew⟩
  · rw [← ev, h, ew]
  · rw [ev, ew] at h
    exact absurd h.symm (digit_ne_letter hq hv _)
  · rw [ev, ew] at h
    exact absurd h (digit_ne_letter hp hw _)
  · rw [ev, ew] at h
    have h' : (p.2.toList ++ ['_']) ++ v.drop 3 = (q.2.toList ++ ['_']) ++ w.drop 3 := by simpa using h
    have pre1 : (p.2.toList ++ ['_']) <+: (q.2.toList ++ ['_']) ++ w.drop 3 := ⟨_, h'⟩
    have pre2 : (q.2.toList ++ ['_']) <+: (q.2.toList ++ ['_']) ++ w.drop 3 := ⟨_, rfl⟩
    have hpq : p = q := by
      rcases Nat.le_total (p.2.toList ++ ['_']).length (q.2.toList ++ ['_']).length with hle | hle
      · exact map_prefix p hp q hq (List.prefix_of_prefix_length_le pre1 pre2 hle)
      · exact (map_prefix q hq p hp (List.prefix_of_prefix_length_le pre2 pre1 hle)).symm
    subst hpq
    have hd := List.append_cancel_left h'
    rw [← List.take_append_drop 3 v, ← List.take_append_drop 3 w, hd, ← hp1, ← hq1]

example : ElementNumber "1000".toList ∧ ElementNumber "9302".toList ∧ mapColumns "1000".toList ≠ mapColumns "9302".toList :=
  have h1 : ElementNumber "1000".toList := by unfold ElementNumber; decide
  have h2 : ElementNumber "9302".toList := by unfold ElementNumber; decide
  ⟨h1, h2, fun h => absurd (names_distinct h1 h2 h) (by decide)⟩

private theorem last_of_map {v : Text} (hv : ElementNumber v) : (mapColumns v).getLast? ≠ some 'g' := by
  obtain ⟨hne, -, hd⟩ := hv
  rcases map_cases v with ev | ⟨p, hp, hp1, ev⟩
  · rw [ev]
    intro h
    have := hd 'g' (List.mem_of_getLast? h)
    exact absurd this (by decide)
  · rw [ev]
    intro h
    rw [List.getLast?_append_of_ne_nil _ (by simp)] at h
    have hm := List.mem_of_getLast? h
    rcases List.mem_cons.mp hm with h1 | h1
    · exact absurd h1 (by decide)
    · have := hd 'g' (List.mem_of_mem_drop h1)
      exact absurd this (by decide)

private theorem flag_last (v : Text) : (v ++ flagSuffix).getLast? = some 'g' := by
  rw [List.getLast?_append_of_ne_nil _ (by decide)]
  decide

private theorem head_of_map {v : Text} (hv : ElementNumber v) : (mapColumns v).head? ≠ some '0' := by
  rcases map_cases v with ev | ⟨p, hp, hp1, ev⟩
  · rw [ev]; exact hv.2.1
  · obtain ⟨h1, h2, -⟩ := map_letters p hp
    rw [ev]
    cases hl : p.2.toList with
    | nil => exact absurd hl h2
    | cons c cs =>
      rw [hl] at h1
      simp only [List.head?_cons, Option.all_some, Bool.not_eq_true'] at h1
      simp only [List.cons_append, List.head?_cons, ne_eq, Option.some.injEq]
      rintro rfl
      exact absurd h1 (by decide)

private theorem map_flag {f : Text} (hf : FlagLabel f) : mapColumns f = f := by
  unfold FlagLabel at hf
  rcases map_cases f with ev | ⟨p, hp, hp1, -⟩
  · exact ev
  · have h0 : ∀ p ∈ srmlMap, p.1.toList.head? ≠ some '0' := by decide +kernel
    exfalso
    apply h0 p hp
    rw [hp1]
    cases f with
    | nil => exact absurd hf (by simp)
    | cons c cs => simpa using hf

/-! ### Interleaved columns -/

/-- Names of variables and flags, alternating. -/
private def names (ps : List (Text × Text)) : List Text := ps.flatMap fun p => [p.1, p.2]

private theorem names_cons (p : Text × Text) (ps) : names (p :: ps) = p.1 :: p.2 :: names ps := rfl

private theorem evens_names (ps : List (Text × Text)) : evens (names ps) = ps.map Prod.fst := by
  induction ps with
  | nil => rfl
  | cons p ps ih => rw [names_cons, evens, ih]; rfl

private theorem odds_names (ps : List (Text × Text)) : odds (names ps) = ps.map Prod.snd := by
  induction ps with
  | nil => rfl
  | cons p ps ih => rw [names_cons, odds, ih]; rfl

private theorem idx_pos {ps : List (Text × Text)} {f : Text} (hf : f ∉ ps.map Prod.fst) (hm : f ∈ ps.map Prod.snd) : 1 ≤ (names ps).idxOf f := by
  cases ps with
  | nil => simp at hm
  | cons p ps =>
    rw [names_cons, List.idxOf_cons_ne _ (by intro e; apply hf; simp [← e])]
    omega

private theorem before_flag {ps : List (Text × Text)} (hd : ∀ p ∈ ps, p.2 ∉ ps.map Prod.fst) (hn : (ps.map Prod.snd).Nodup) :
    ∀ p ∈ ps, (names ps).getD ((names ps).idxOf p.2 - 1) [] = p.1 := by
  induction ps with
  | nil => simp
  | cons q ps ih =>
    intro p hp
    have hq : p.2 ≠ q.1 := by intro e; exact hd p hp (by simp [e])
    rw [names_cons, List.idxOf_cons_ne _ hq.symm]
    rcases List.mem_cons.mp hp with rfl | hp'
    · rw [List.idxOf_cons_self]; rfl
    · have hne : p.2 ≠ q.2 := by
        intro e
        rw [List.map_cons, List.nodup_cons] at hn
        exact hn.1 (e ▸ List.mem_map_of_mem hp')
      rw [List.idxOf_cons_ne _ hne.symm]
      have hd' : ∀ p ∈ ps, p.2 ∉ ps.map Prod.fst := fun p hp h => hd p (by simp [hp]) (by rw [List.map_cons]; exact List.mem_cons_of_mem _ h)
      have h1 := idx_pos (hd' p hp') (List.mem_map_of_mem hp')
      have e : ((names ps).idxOf p.2 + 1 + 1) - 1 = ((names ps).idxOf p.2 - 1) + 1 + 1 := by omega
      rw [e, List.getD_cons_succ, List.getD_cons_succ]
      rw [List.map_cons, List.nodup_cons] at hn
      exact ih hd' hn.2 p hp'

open Classical in
private theorem maskAll_ok (F : Text → List Fl) (cols : List Text) (data : List Column) (hn : cols.Nodup)
    (hf : ∀ col ∈ cols, data.find? (fun c => c.name = col ++ flagSuffix) = some ⟨col ++ flagSuffix, F col⟩)
    (hd : ∀ a ∈ cols, ∀ b ∈ cols, a ++ flagSuffix ≠ b) :
    maskAll cols data = .ok (data.map fun c =>
      if c.name ∈ cols then ⟨c.name, List.zipWith (fun x f => if f = (99 : Fl) then Fl.nan else x) c.values (F c.name)⟩ else c) := by
  induction cols generalizing data with
  | nil => simp [maskAll]
  | cons col cols ih =>
    rw [maskAll, maskColumn, hf col (by simp)]
    dsimp only
    rw [List.nodup_cons] at hn
    rw [ih _ hn.2 _ (fun a ha b hb => hd a (by simp [ha]) b (by simp [hb])), List.map_map]
    · congr 1
      apply List.map_congr_left
      intro c _
      simp only [Function.comp_apply]
      by_cases h1 : c.name = col
      · rw [if_pos h1]
        have h2 : (⟨c.name, List.zipWith (fun x f => if f = (99 : Fl) then Fl.nan else x) c.values (F col)⟩ : Column).name ∉ cols := by
          show c.name ∉ cols; rw [h1]; exact hn.1
        rw [if_neg h2, if_pos (by simp [h1]), h1]
      · rw [if_neg h1]
        by_cases h2 : c.name ∈ cols
        · rw [if_pos h2, if_pos (by simp [h2])]
        · rw [if_neg h2, if_neg (by simp [h1, h2])]
    · intro col' hc'
      rw [List.find?_map]
      have hcomp : ((fun c : Column => decide (c.name = col' ++ flagSuffix)) ∘ fun c : Column =>
          if c.name = col then (⟨c.name, List.zipWith (fun x f => if f = (99 : Fl) then Fl.nan else x) c.values (F col)⟩ : Column) else c) =
          fun c : Column => decide (c.name = col' ++ flagSuffix) := by
        funext c
        simp only [Function.comp_apply]
        split <;> rfl
      rw [hcomp, hf col' (by simp [hc']), Option.map_some]
      dsimp only
      rw [if_neg (hd col' (by simp [hc']) col (by simp))]

private theorem flatMap_congr' {α β : Type} {f g : α → List β} {l : List α} (h : ∀ a ∈ l, f a = g a) : l.flatMap f = l.flatMap g := by
  induction l with
  | nil => rfl
  | cons a l ih => rw [List.flatMap_cons, List.flatMap_cons, h a (by simp), ih (fun b hb => h b (by simp [hb]))]

open Classical in
/-- The general form: any file of alternating columns whose (new) names are distinct. -/
private theorem table_core (mv : Text → Text) (ps : List Pair) (hnd : (ps.map Pair.flag).Nodup)
    (hvd : (ps.map fun p => mv p.element).Nodup)
    (hvf : ∀ p ∈ ps, ∀ q ∈ ps, p.flag ≠ mv q.element)
    (hff : ∀ p ∈ ps, ∀ q ∈ ps, mv p.element ++ flagSuffix ≠ mv q.element) :
    (let data := ps.flatMap fun p => [(⟨mv p.element, p.values⟩ : Column), ⟨p.flag, p.flags⟩]
     let columns := data.map Column.name
     maskAll (evens columns) (data.map fun c => (⟨flagName columns c.name, c.values⟩ : Column))) =
      .ok (ps.flatMap fun p => [⟨mv p.element, cleaned p⟩, ⟨mv p.element ++ flagSuffix, p.flags⟩]) := by
  dsimp only
  have hcols : (ps.flatMap fun p => [(⟨mv p.element, p.values⟩ : Column), ⟨p.flag, p.flags⟩]).map Column.name =
      names (ps.map fun p => (mv p.element, p.flag)) := by
    unfold names
    rw [List.map_flatMap, List.flatMap_map]
    rfl
  rw [hcols, evens_names]
  have hd1 : ∀ p ∈ ps.map fun p => (mv p.element, p.flag), p.2 ∉ (ps.map fun p => (mv p.element, p.flag)).map Prod.fst := by
    intro p hp hmem
    obtain ⟨a, ha, rfl⟩ := List.mem_map.mp hp
    rw [List.map_map] at hmem
    obtain ⟨b, hb, hbe⟩ := List.mem_map.mp hmem
    exact hvf a ha b hb hbe.symm
  have hn1 : ((ps.map fun p => (mv p.element, p.flag)).map Prod.snd).Nodup := by rw [List.map_map]; exact hnd
  have hfl : ∀ p ∈ ps, flagName (names (ps.map fun p => (mv p.element, p.flag))) p.flag = mv p.element ++ flagSuffix := by
    intro p hp
    unfold flagName
    rw [odds_names, if_pos (by rw [List.map_map]; exact List.mem_map.mpr ⟨p, hp, rfl⟩),
      before_flag hd1 hn1 (mv p.element, p.flag) (List.mem_map.mpr ⟨p, hp, rfl⟩)]
  have hvn : ∀ p ∈ ps, flagName (names (ps.map fun p => (mv p.element, p.flag))) (mv p.element) = mv p.element := by
    intro p hp
    unfold flagName
    rw [odds_names, if_neg]
    rw [List.map_map]
    intro hm
    obtain ⟨q, hq, he⟩ := List.mem_map.mp hm
    exact hvf q hq p hp he
  have hdata : ((ps.flatMap fun p => [(⟨mv p.element, p.values⟩ : Column), ⟨p.flag, p.flags⟩]).map fun c =>
      (⟨flagName (names (ps.map fun p => (mv p.element, p.flag))) c.name, c.values⟩ : Column)) =
      ps.flatMap fun p => [(⟨mv p.element, p.values⟩ : Column), ⟨mv p.element ++ flagSuffix, p.flags⟩] := by
    rw [List.map_flatMap]
    apply flatMap_congr'
    intro p hp
    simp only [List.map_cons, List.map_nil, hfl p hp, hvn p hp]
  rw [hdata, List.map_map]
  have hcomp : (Prod.fst ∘ fun p : Pair => (mv p.element, p.flag)) = fun p : Pair => mv p.element := rfl
  rw [hcomp]
  -- the flags of a variable
  have hinj : ∀ p ∈ ps, ∀ q ∈ ps, mv p.element = mv q.element → p = q := by
    intro p hp q hq h
    exact List.inj_on_of_nodup_map hvd hp hq h
  let F : Text → List Fl := fun n => match ps.find? (fun p => mv p.element = n) with
    | some p => p.flags
    | none => []
  have hF : ∀ p ∈ ps, F (mv p.element) = p.flags := by
    intro p hp
    show (match ps.find? (fun q => mv q.element = mv p.element) with | some p => p.flags | none => []) = _
    cases hfd : ps.find? (fun q => mv q.element = mv p.element) with
    | none =>
      have := List.find?_eq_none.mp hfd p hp
      simp at this
    | some q =>
      have h1 := List.find?_some hfd
      have h2 := List.mem_of_find?_eq_some hfd
      have := hinj q h2 p hp (by simpa using h1)
      subst this
      rfl
  rw [maskAll_ok F _ _ hvd]
  · congr 1
    rw [List.map_flatMap]
    apply flatMap_congr'
    intro p hp
    simp only [List.map_cons, List.map_nil]
    rw [if_pos (List.mem_map.mpr ⟨p, hp, rfl⟩), hF p hp, if_neg]
    · rfl
    · intro hm
      obtain ⟨q, hq, he⟩ := List.mem_map.mp hm
      exact hff p hp q hq he.symm
  · intro col hc
    obtain ⟨p, hp, rfl⟩ := List.mem_map.mp hc
    rw [hF p hp]
    -- the first column of that name
    have gen : ∀ l : List Pair, (∀ q ∈ l, q ∈ ps) → p ∈ l →
        (l.flatMap fun p => [(⟨mv p.element, p.values⟩ : Column), ⟨mv p.element ++ flagSuffix, p.flags⟩]).find?
          (fun c => decide (c.name = mv p.element ++ flagSuffix)) = some ⟨mv p.element ++ flagSuffix, p.flags⟩ := by
      intro l
      induction l with
      | nil => intro _ h; simp at h
      | cons q l ih =>
        intro hall hpl
        rw [List.flatMap_cons, List.cons_append, List.cons_append, List.nil_append]
        rw [List.find?_cons_of_neg]
        · by_cases hqp : q = p
          · subst hqp
            rw [List.find?_cons_of_pos]
            simp
          · rw [List.find?_cons_of_neg]
            · exact ih (fun x hx => hall x (by simp [hx])) ((List.mem_cons.mp hpl).resolve_left (fun e => hqp e.symm))
            · simp only [decide_eq_true_eq]
              intro he
              exact hqp (hinj q (hall q (by simp)) p hp (List.append_cancel_right he))
        · simp only [decide_eq_true_eq]
          intro he
          exact hff p hp q (hall q (by simp)) he.symm
    exact gen ps (fun q hq => hq) hp
  · intro a ha b hb
    obtain ⟨p, hp, rfl⟩ := List.mem_map.mp ha
    obtain ⟨q, hq, rfl⟩ := List.mem_map.mp hb
    exact hff p hp q hq

/-- `read_srml`: every variable under its pvlib name (or its number), followed by its own flags under that name with '_flag'; values
flagged 99, and only those, are NaN; nothing else changes. -/
theorem srml_table (map_variables : Bool) (ps : List Pair) (hv : ∀ p ∈ ps, ElementNumber p.element) (hf : ∀ p ∈ ps, FlagLabel p.flag)
    (hnv : (ps.map Pair.element).Nodup) (hnf : (ps.map Pair.flag).Nodup) :
    srmlTable map_variables (columnsOf ps) = .ok (ps.flatMap fun p =>
      let name := if map_variables then mapColumns p.element else p.element
      [⟨name, cleaned p⟩, ⟨name ++ "_flag".toList, p.flags⟩]) := by
  have last_plain : ∀ p ∈ ps, p.element.getLast? ≠ some 'g' := by
    intro p hp h
    have := (hv p hp).2.2 'g' (List.mem_of_getLast? h)
    exact absurd this (by decide)
  cases map_variables
  · have := table_core id ps hnf (by simpa using hnv)
      (fun p hp q hq e => (hv q hq).2.1 (by have := hf p hp; unfold FlagLabel at this; rw [e] at this; exact this))
      (fun p hp q hq e => last_plain q hq (by rw [show q.element = id p.element ++ flagSuffix from e.symm]; exact flag_last _))
    simpa [srmlTable, columnsOf, flagSuffix] using this
  · have hnd : (ps.map fun p => mapColumns p.element).Nodup := by
      have : (ps.map fun p => mapColumns p.element) = (ps.map Pair.element).map mapColumns := by rw [List.map_map]; rfl
      rw [this]
      refine hnv.map_on ?_
      intro a ha b hb hab
      obtain ⟨p, hp, rfl⟩ := List.mem_map.mp ha
      obtain ⟨q, hq, rfl⟩ := List.mem_map.mp hb
      exact names_distinct (hv p hp) (hv q hq) hab
    have := table_core mapColumns ps hnf hnd
      (fun p hp q hq e => head_of_map (hv q hq) (by have := hf p hp; unfold FlagLabel at this; rw [e] at this; exact this))
      (fun p hp q hq e => last_of_map (hv q hq) (by rw [← e]; exact flag_last _))
    have hcol : (columnsOf ps).map (fun c => (⟨mapColumns c.name, c.values⟩ : Column)) =
        ps.flatMap fun p => [(⟨mapColumns p.element, p.values⟩ : Column), ⟨p.flag, p.flags⟩] := by
      unfold columnsOf
      rw [List.map_flatMap]
      apply flatMap_congr'
      intro p hp
      simp only [List.map_cons, List.map_nil, map_flag (hf p hp)]
    unfold srmlTable
    simp only [if_true]
    rw [hcol]
    exact this

example := srml_table true [⟨"1000".toList, "0".toList, [Fl.fin 5, Fl.fin 6], [12, 99]⟩, ⟨"9302".toList, "0.1".toList, [], []⟩]
  (by intro p hp; unfold ElementNumber; simp only [List.mem_cons, List.not_mem_nil, or_false] at hp; rcases hp with rfl | rfl <;> decide)
  (by intro p hp; unfold FlagLabel; simp only [List.mem_cons, List.not_mem_nil, or_false] at hp; rcases hp with rfl | rfl <;> decide)
  (by decide) (by decide)

/-- The pvlib names: a known element keeps the number of the instrument after the name; everything else, in particular spectral data
(7xxx), keeps its number. -/
theorem srml_names : mapColumns "1000".toList = "ghi_0".toList ∧ mapColumns "2013".toList = "dni_3".toList ∧
    mapColumns "9302".toList = "temp_air_2".toList ∧ mapColumns "7123".toList = "7123".toList ∧ mapColumns "5000".toList = "5000".toList := by
  decide +kernel

example : (∀ p ∈ [(⟨"1000".toList, "0".toList, [Fl.fin 5, Fl.fin 6], [12, 99]⟩ : Pair), ⟨"9302".toList, "0.1".toList, [], []⟩],
    ElementNumber p.element ∧ FlagLabel p.flag) := by
  intro p hp
  unfold ElementNumber FlagLabel
  rcases List.mem_cons.mp hp with rfl | hp
  · decide
  · obtain rfl := List.mem_singleton.mp hp
    decide

/-! ## C161: missing values -/

/-- SURFRAD: exactly -9999.9 is missing. -/
theorem surfrad_missing (x : Fl) : (x = -(9999.9 : Fl) → surfradCell x = Fl.nan) ∧ (x ≠ -(9999.9 : Fl) → surfradCell x = x) :=
  ⟨fun h => by unfold surfradCell; rw [if_pos h], fun h => by unfold surfradCell; rw [if_neg h]⟩

example := (surfrad_missing (-(9999.9 : Fl))).1 rfl

/-- BSRN: exactly -999 and -99.9 are missing. -/
theorem bsrn_missing (x : Fl) : (x = -999 ∨ x = -(99.9 : Fl) → bsrnCell x = Fl.nan) ∧
    (x ≠ -999 → x ≠ -(99.9 : Fl) → bsrnCell x = x) := by
  have e : (999.0 : Fl) = 999 := by rw [Fl.ofScientific_eq, Fl.ofNat_eq]; norm_num
  constructor
  · intro h; unfold bsrnCell; rw [e, if_pos h]
  · intro h1 h2; unfold bsrnCell; rw [e, if_neg (by tauto)]

example := (bsrn_missing (-999)).1 (Or.inl rfl)

/-- CRN: each column has its own missing value. Other values, and the values of columns without one, are kept. -/
theorem crn_missing (x : Fl) :
    (∀ c ∈ ["AIR_TEMPERATURE", "PRECIPITATION", "SURFACE_TEMPERATURE", "RELATIVE_HUMIDITY", "SOIL_TEMPERATURE_5", "WETNESS"],
      (x = -9999 → crnCell c x = Fl.nan) ∧ (x ≠ -9999 → crnCell c x = x)) ∧
    ((x = -99999 → crnCell "SOLAR_RADIATION" x = Fl.nan) ∧ (x ≠ -99999 → crnCell "SOLAR_RADIATION" x = x)) ∧
    (∀ c ∈ ["SOIL_MOISTURE_5", "WIND_1_5"], (x = -99 → crnCell c x = Fl.nan) ∧ (x ≠ -99 → crnCell c x = x)) ∧
    (∀ c, c ∉ crnMissing.map Prod.fst → crnCell c x = x) := by
  have key : ∀ (c : String) (v : Fl), c ≠ "CRX_VN" → ((c, x) ∈ crnMissing ↔ x = v) → (x = v → crnCell c x = Fl.nan) ∧ (x ≠ v → crnCell c x = x) := by
    intro c v hc hv
    unfold crnCell
    exact ⟨fun h => if_pos ⟨hc, hv.mpr h⟩, fun h => if_neg (fun h' => h (hv.mp h'.2))⟩
  refine ⟨?_, ?_, ?_, ?_⟩
  · intro c hc
    simp only [List.mem_cons, List.not_mem_nil, or_false] at hc
    rcases hc with rfl | rfl | rfl | rfl | rfl | rfl <;> refine key _ _ (by decide) ?_ <;>
      simp only [crnMissing, List.mem_cons, Prod.mk.injEq, String.reduceEq, false_and, false_or, or_false, true_and, List.not_mem_nil]
  · refine key _ _ (by decide) ?_
    simp only [crnMissing, List.mem_cons, Prod.mk.injEq, String.reduceEq, false_and, false_or, or_false, true_and, List.not_mem_nil]
  · intro c hc
    simp only [List.mem_cons, List.not_mem_nil, or_false] at hc
    rcases hc with rfl | rfl <;> refine key _ _ (by decide) ?_ <;>
      simp only [crnMissing, List.mem_cons, Prod.mk.injEq, String.reduceEq, false_and, false_or, or_false, true_and, List.not_mem_nil]
  · intro c hc
    unfold crnCell
    rw [if_neg]
    rintro ⟨-, h⟩
    exact hc (List.mem_map.mpr ⟨_, h, rfl⟩)

example := (crn_missing (-99999)).2.1.1 rfl

/-- Headers and widths of the fixed width files belong together, names are distinct, and the lengths of the lines. -/
theorem layouts : crnHeaders.length = crnWidths.length ∧ crnHeaders.Nodup ∧ crnWidths.sum = 134 ∧
    solradHeaders.length = solradWidths.length ∧ solradHeaders.Nodup ∧ solradWidths.sum = 124 ∧
    madisonHeaders.length = madisonWidths.length ∧ madisonHeaders.Nodup ∧ madisonWidths.sum = 184 := by decide +kernel

/-- The names: date and time first, then the measurements, each with its quality flag, then the standard deviations; the Madison files
also have the downwelling infrared (case and dome temperatures). -/
theorem layout_names :
    crnHeaders = ["WBANNO", "UTC_DATE", "UTC_TIME", "LST_DATE", "LST_TIME", "CRX_VN", "LONGITUDE", "LATITUDE", "AIR_TEMPERATURE",
      "PRECIPITATION", "SOLAR_RADIATION", "SR_FLAG", "SURFACE_TEMPERATURE", "ST_TYPE", "ST_FLAG", "RELATIVE_HUMIDITY", "RH_FLAG",
      "SOIL_MOISTURE_5", "SOIL_TEMPERATURE_5", "WETNESS", "WET_FLAG", "WIND_1_5", "WIND_FLAG"] ∧
    solradHeaders = ["year", "julian_day", "month", "day", "hour", "minute", "decimal_time", "solar_zenith"] ++
      (["ghi", "dni", "dhi", "uvb", "uvb_temp"].map fun c => [c, c ++ "_flag"]).flatten ++
      ["dw_psp", "direct", "diffuse", "uvb"].map ("std_" ++ ·) ∧
    madisonHeaders = solradHeaders.take 18 ++ (["dpir", "dpirc", "dpird"].map fun c => [c, c ++ "_flag"]).flatten ++
      solradHeaders.drop 18 ++ ["dpir", "dpirc", "dpird"].map ("std_" ++ ·) := by decide +kernel

/-! ## C162: downloads of several files -/

private theorem daysFrom_spec (d : Date) (h : d.Valid) (n : ℕ) :
    (∀ x ∈ daysFrom d n, x.Valid) ∧ (daysFrom d n).map Date.ordinal = List.range' d.ordinal n := by
  induction n generalizing d with
  | zero => exact ⟨by simp [daysFrom], rfl⟩
  | succ n ih =>
    obtain ⟨h1, h2⟩ := ih d.next (next_valid h)
    constructor
    · intro x hx
      rcases List.mem_cons.mp hx with rfl | hx
      · exact h
      · exact h1 x hx
    · rw [daysFrom, List.map_cons, h2, next_ordinal h, List.range'_succ]

/-- Daily files: the requested days are exactly those from the day of `start` to the day of `end`, in order. -/
theorem days_requested {s e : Date} (hs : s.Valid) :
    (fileDays s e).Pairwise (fun a b => a.ordinal < b.ordinal) ∧ (∀ d ∈ fileDays s e, d.Valid) ∧
    ∀ d : Date, d.Valid → (d ∈ fileDays s e ↔ s.ordinal ≤ d.ordinal ∧ d.ordinal ≤ e.ordinal) := by
  obtain ⟨h1, h2⟩ := daysFrom_spec s hs (e.ordinal + 1 - s.ordinal)
  refine ⟨?_, h1, ?_⟩
  · rw [← List.pairwise_map (f := Date.ordinal) (R := (· < ·))]
    show ((daysFrom s _).map Date.ordinal).Pairwise (· < ·)
    rw [h2]
    exact List.pairwise_lt_range'
  · intro d hd
    have hm : d ∈ fileDays s e ↔ d.ordinal ∈ (fileDays s e).map Date.ordinal := by
      constructor
      · exact fun h => List.mem_map.mpr ⟨d, h, rfl⟩
      · intro h
        obtain ⟨x, hx, he⟩ := List.mem_map.mp h
        rw [← ordinal_inj (h1 x hx) hd he]
        exact hx
    rw [hm]
    show d.ordinal ∈ (daysFrom s _).map Date.ordinal ↔ _
    rw [h2, List.mem_range'_1]
    omega

example := days_requested (s := ⟨2020, 2, 28⟩) (e := ⟨2020, 3, 1⟩) (by decide +kernel)

private theorem dayFile_inj {a b : Date} (ha : a.Valid) (hb : b.Valid) (h : dayFile a = dayFile b) : a = b := by
  unfold dayFile at h
  simp only [Prod.mk.injEq] at h
  apply ordinal_inj ha hb
  unfold Date.ordinal
  rw [h.1, h.2.2]

/-- Different days have different files. -/
theorem day_files_distinct {s e : Date} (hs : s.Valid) : ((fileDays s e).map dayFile).Nodup := by
  obtain ⟨h1, h2, -⟩ := days_requested (e := e) hs
  have hn : (fileDays s e).Nodup := h1.imp fun h e => by rw [e] at h; exact absurd h (lt_irrefl _)
  exact hn.map_on fun a ha b hb h => dayFile_inj (h2 a ha) (h2 b hb) h

example := day_files_distinct (s := ⟨2020, 2, 28⟩) (e := ⟨2020, 3, 1⟩) (by decide +kernel)

/-- Months, counted. -/
private def monthNo (d : Date) : ℕ := 12 * d.year + d.month

private theorem monthsFrom_spec (d : Date) (h : 1 ≤ d.month ∧ d.month ≤ 12 ∧ d.day = 1) (n : ℕ) :
    (∀ x ∈ monthsFrom d n, 1 ≤ x.month ∧ x.month ≤ 12 ∧ x.day = 1) ∧ (monthsFrom d n).map monthNo = List.range' (monthNo d) n := by
  induction n generalizing d with
  | zero => exact ⟨by simp [monthsFrom], rfl⟩
  | succ n ih =>
    have hn : 1 ≤ (nextMonth d).month ∧ (nextMonth d).month ≤ 12 ∧ (nextMonth d).day = 1 := by
      unfold nextMonth; split <;> dsimp only <;> omega
    have hm : monthNo (nextMonth d) = monthNo d + 1 := by
      unfold nextMonth monthNo; split <;> dsimp only <;> omega
    obtain ⟨h1, h2⟩ := ih (nextMonth d) hn
    constructor
    · intro x hx
      rcases List.mem_cons.mp hx with rfl | hx
      · exact h
      · exact h1 x hx
    · rw [monthsFrom, List.map_cons, h2, hm, List.range'_succ]

/-- Monthly files: the requested months are exactly those from the month of `start` to the month of `end`, in order. -/
theorem months_requested {s e : Date} (hs : s.Valid) :
    (fileMonths s e).Pairwise (fun a b => 12 * a.year + a.month < 12 * b.year + b.month) ∧
    ∀ y m, 1 ≤ m → m ≤ 12 →
      ((⟨y, m, 1⟩ : Date) ∈ fileMonths s e ↔ 12 * s.year + s.month ≤ 12 * y + m ∧ 12 * y + m ≤ 12 * e.year + e.month) := by
  obtain ⟨h1, h2⟩ := monthsFrom_spec ⟨s.year, s.month, 1⟩ ⟨hs.2.1, hs.2.2.1, rfl⟩ (12 * e.year + e.month + 1 - (12 * s.year + s.month))
  refine ⟨?_, ?_⟩
  · show (fileMonths s e).Pairwise (fun a b => monthNo a < monthNo b)
    rw [← List.pairwise_map (f := monthNo) (R := (· < ·))]
    show ((monthsFrom _ _).map monthNo).Pairwise (· < ·)
    rw [h2]
    exact List.pairwise_lt_range'
  · intro y m hm1 hm2
    have hm : (⟨y, m, 1⟩ : Date) ∈ fileMonths s e ↔ monthNo ⟨y, m, 1⟩ ∈ (fileMonths s e).map monthNo := by
      constructor
      · exact fun h => List.mem_map.mpr ⟨_, h, rfl⟩
      · intro h
        obtain ⟨x, hx, he⟩ := List.mem_map.mp h
        obtain ⟨a, b, c⟩ := h1 x hx
        have : x = ⟨y, m, 1⟩ := by
          obtain ⟨x1, x2, x3⟩ := x
          unfold monthNo at he
          dsimp only at a b c he
          have e1 : x1 = y := by omega
          have e2 : x2 = m := by omega
          rw [e1, e2, c]
        rw [← this]; exact hx
    rw [hm]
    show _ ∈ (monthsFrom _ _).map monthNo ↔ _
    rw [h2, List.mem_range'_1]
    unfold monthNo
    dsimp only
    omega

example := months_requested (s := ⟨2019, 11, 30⟩) (e := ⟨2020, 2, 1⟩) (by decide +kernel)

/-- The file names of the months have two-digit years: they are distinct if and as long as the range is shorter than 100 years. -/
theorem month_files_distinct {s e : Date} (hs : s.Valid) (h : 12 * e.year + e.month < 12 * s.year + s.month + 1200) :
    ((fileMonths s e).map monthFile).Nodup := by
  obtain ⟨h1, h2⟩ := monthsFrom_spec ⟨s.year, s.month, 1⟩ ⟨hs.2.1, hs.2.2.1, rfl⟩ (12 * e.year + e.month + 1 - (12 * s.year + s.month))
  have hp := (months_requested (e := e) hs).1
  have hn : (fileMonths s e).Nodup := hp.imp fun h e => by rw [e] at h; exact absurd h (lt_irrefl _)
  refine hn.map_on fun a ha b hb hab => ?_
  have ma : monthNo a ∈ List.range' (monthNo ⟨s.year, s.month, 1⟩) (12 * e.year + e.month + 1 - (12 * s.year + s.month)) := by
    rw [← h2]; exact List.mem_map.mpr ⟨a, ha, rfl⟩
  have mb : monthNo b ∈ List.range' (monthNo ⟨s.year, s.month, 1⟩) (12 * e.year + e.month + 1 - (12 * s.year + s.month)) := by
    rw [← h2]; exact List.mem_map.mpr ⟨b, hb, rfl⟩
  rw [List.mem_range'_1] at ma mb
  obtain ⟨a1, a2, a3⟩ := h1 a ha
  obtain ⟨b1, b2, b3⟩ := h1 b hb
  obtain ⟨ay, am, ad⟩ := a
  obtain ⟨yb, bm, bd⟩ := b
  unfold monthFile at hab
  unfold monthNo at ma mb
  simp only [Prod.mk.injEq] at hab
  dsimp only at *
  have e1 : ay = yb := by omega
  rw [e1, hab.2, a3, b3]

example := month_files_distinct (s := ⟨2019, 11, 30⟩) (e := ⟨2020, 2, 1⟩) (by decide +kernel) (by norm_num)

section
variable {F T : Type}

/-- The files that are there. -/
def found (fetch : F → Fetched T) (files : List F) : List T := files.filterMap fun f => match fetch f with | .ok t => some t | _ => none

open Classical in
/-- The files that are not. -/
noncomputable def notFound (fetch : F → Fetched T) (files : List F) : List F := files.filter fun f => fetch f = .missing

/-- The loop: missing files are skipped and reported, the others are read in order; the first other exception ends it. -/
theorem loop (fetch : F → Fetched T) (files : List F) :
    ((∀ f ∈ files, ∀ e, fetch f ≠ .raises e) → fetchAll fetch files = .ok (found fetch files, notFound fetch files)) ∧
    (∀ a f b e, files = a ++ f :: b → (∀ g ∈ a, ∀ e, fetch g ≠ .raises e) → fetch f = .raises e → fetchAll fetch files = .error e) := by
  constructor
  · intro h
    induction files with
    | nil => rfl
    | cons f fs ih =>
      have ih' := ih (fun g hg => h g (by simp [hg]))
      unfold fetchAll found notFound
      cases hf : fetch f with
      | ok t =>
        rw [ih']
        simp [hf, found, notFound]
      | missing =>
        rw [ih']
        simp [hf, found, notFound]
      | raises e => exact absurd hf (h f (by simp) e)
  · intro a f b e hfs ha hf
    subst hfs
    induction a with
    | nil => simp [fetchAll, hf]
    | cons g gs ih =>
      have ih' := ih (fun x hx => ha x (by simp [hx]))
      rw [List.cons_append, fetchAll]
      cases hg : fetch g with
      | ok t => rw [ih']
      | missing => rw [ih']
      | raises e' => exact absurd hg (ha g (by simp) e')

example := (loop (fun n : ℕ => if n = 1 then Fetched.missing else .ok n) [0, 1, 2]).1 (by intro f _ e; split_ifs <;> simp)
example := (loop (fun n : ℕ => if n = 2 then Fetched.raises .valueError else .ok n) [0, 1, 2]).2 [0, 1] 2 [] .valueError rfl
  (by intro f hf e; simp only [List.mem_cons, List.not_mem_nil, or_false] at hf; rcases hf with rfl | rfl <;> simp) rfl

end

section
variable {R M : Type}

/-- `get_surfrad` and `get_solrad`: the rows of all available files in chronological order, the metadata of the last available one,
the names of all requested files, and a warning for each that was not found; ValueError if there was none. -/
theorem get_days (read : ℕ × ℕ × ℕ → Fetched (List R × M)) (s e : Date) (h : ∀ f e, read f ≠ .raises e) :
    (∀ last, (found read ((fileDays s e).map dayFile)).getLast? = some last →
      getSolrad read s e = .ok ⟨((found read ((fileDays s e).map dayFile)).map Prod.fst).flatten, last.2, (fileDays s e).map dayFile,
        notFound read ((fileDays s e).map dayFile)⟩) ∧
    (found read ((fileDays s e).map dayFile) = [] → getSolrad read s e = .error .valueError) := by
  have hl := (loop read ((fileDays s e).map dayFile)).1 (fun f _ => h f)
  constructor
  · intro last hlast
    unfold getSolrad getDays
    dsimp only
    rw [hl]
    dsimp only
    rw [hlast]
  · intro hn
    unfold getSolrad getDays
    dsimp only
    rw [hl]
    dsimp only
    rw [hn]
    rfl

/-- 29 February is missing on the server. -/
example := get_days (fun f => if f = (2020, 20, 60) then Fetched.missing else .ok ([f], f.2.2)) ⟨2020, 2, 28⟩ ⟨2020, 3, 1⟩
  (by intro f e; split_ifs <;> simp)

/-- `get_surfrad` is `get_solrad` on its own files with the variables always mapped: it ignores its argument `map_variables`. -/
theorem surfrad_ignores_map_variables (read : Bool → ℕ × ℕ × ℕ → Fetched (List R × M)) (s e : Date) (map_variables : Bool) :
    getSurfrad read s e map_variables = getSolrad (read true) s e := rfl

/-- `get_srml`. -/
theorem get_srml (read : Bool → ℕ × ℕ → Fetched (List R)) (s e : Date) (mv : Bool) (h : ∀ f e, read mv f ≠ .raises e) :
    (found (read mv) ((fileMonths s e).map monthFile) ≠ [] →
      getSrml read s e mv = .ok ⟨(found (read mv) ((fileMonths s e).map monthFile)).flatten, (), (fileMonths s e).map monthFile,
        notFound (read mv) ((fileMonths s e).map monthFile)⟩) ∧
    (found (read mv) ((fileMonths s e).map monthFile) = [] → getSrml read s e mv = .error .valueError) := by
  have hl := (loop (read mv) ((fileMonths s e).map monthFile)).1 (fun f _ => h f)
  constructor
  · intro hne
    unfold getSrml
    dsimp only
    rw [hl]
    dsimp only
    rw [if_neg (by rw [List.isEmpty_iff]; exact hne)]
  · intro hn
    unfold getSrml
    dsimp only
    rw [hl]
    dsimp only
    rw [if_pos (by rw [List.isEmpty_iff]; exact hn)]

example := get_srml (fun _ f => if f = (20, 1) then Fetched.missing else .ok [f]) ⟨2019, 11, 30⟩ ⟨2020, 2, 1⟩ true
  (by intro f e; split_ifs <;> simp)

/-- `get_bsrn`: as the others, but without any file the table is empty and so are the metadata. -/
theorem get_bsrn (empty : M) (read : ℕ × ℕ → Fetched (List R × M)) (s e : Date) (h : ∀ f e, read f ≠ .raises e) :
    getBsrn empty read s e = .ok ⟨((found read ((fileMonths s e).map monthFile)).map Prod.fst).flatten,
      ((found read ((fileMonths s e).map monthFile)).getLast?.map Prod.snd).getD empty, (fileMonths s e).map monthFile,
      notFound read ((fileMonths s e).map monthFile)⟩ := by
  have hl := (loop read ((fileMonths s e).map monthFile)).1 (fun f _ => h f)
  unfold getBsrn
  dsimp only
  rw [hl]
  dsimp only
  generalize found read ((fileMonths s e).map monthFile) = l
  cases hlast : l.getLast? with
  | none =>
    rw [List.getLast?_eq_none_iff.mp hlast]
    rfl
  | some last => rfl

end

/-- Three days over the end of a leap February. -/
example : (fileDays ⟨2020, 2, 28⟩ ⟨2020, 3, 1⟩).map dayFile = [(2020, 20, 59), (2020, 20, 60), (2020, 20, 61)] := by decide +kernel

example : (fileMonths ⟨2019, 11, 30⟩ ⟨2020, 2, 1⟩).map monthFile = [(19, 11), (19, 12), (20, 1), (20, 2)] := by decide +kernel

/-! ## C163: BSRN files -/

/-- A logical record: the header line, which starts with '*' and has the number at positions 2 to 5, and lines that do not start with
'*'. -/
structure Record where
  (header : Text)
  (body : List Text)

def Record.Ok (r : Record) : Prop := r.header.head? = some '*' ∧ ∀ l ∈ r.body, l.head? ≠ some '*'

/-- The number of a record. -/
def Record.number (r : Record) : Text := (r.header.take 6).drop 2

/-- The lines of a file. -/
def fileLines (rs : List Record) : List Text := rs.flatMap fun r => r.header :: r.body

private theorem scan_body (s : Scan) (num : ℕ) (body rest : List Text) (h : ∀ l ∈ body, l.head? ≠ some '*') :
    scanLines s num (body ++ rest) = scanLines s (num + body.length) rest := by
  induction body generalizing num with
  | nil => rfl
  | cons l body ih =>
    rw [List.cons_append, scanLines]
    have : scanLine s num l = s := by unfold scanLine; rw [if_neg (h l (by simp))]
    rw [this, ih (num + 1) (fun x hx => h x (by simp [hx])), List.length_cons]
    congr 1
    omega

private theorem scan_record (s : Scan) (num : ℕ) (r : Record) (hr : r.Ok) (rest : List Text) :
    scanLines s num (r.header :: r.body ++ rest) =
      scanLines ⟨some r.number, (r.number, num) :: s.startrow,
        match s.lr with | none => s.nrows | some lr => (lr, num - (dget s.startrow lr).getD 0 - 1) :: s.nrows⟩ (num + 1 + r.body.length) rest := by
  rw [List.cons_append, scanLines, scan_body _ _ _ _ hr.2]
  congr 1
  unfold scanLine
  rw [if_pos hr.1]
  rfl

private theorem scan_post (k : Text) (post : List Record) (hok : ∀ r ∈ post, r.Ok) (hk : ∀ r ∈ post, r.number ≠ k)
    (s : Scan) (lr : Text) (hlr : s.lr = some lr) (num p : ℕ) (hp : dget s.startrow lr = some p) :
    ∃ lr', (scanLines s num (fileLines post)).lr = some lr' ∧
      dget (scanLines s num (fileLines post)).startrow k = dget s.startrow k ∧
      dget ((lr', (num + (fileLines post).length - 1) - (dget (scanLines s num (fileLines post)).startrow lr').getD 0) ::
        (scanLines s num (fileLines post)).nrows) k = if lr = k then some (num - 1 - p) else dget s.nrows k := by
  induction post generalizing s lr num p with
  | nil =>
    refine ⟨lr, hlr, rfl, ?_⟩
    show dget ((lr, num + 0 - 1 - (dget s.startrow lr).getD 0) :: s.nrows) k = _
    rw [hp]
    simp only [dget, Option.getD_some, Nat.add_zero]
  | cons r post ih =>
    have hr := hok r (by simp)
    have hrk := hk r (by simp)
    have e : fileLines (r :: post) = r.header :: r.body ++ fileLines post := rfl
    rw [e, scan_record s num r hr]
    rw [hlr]
    dsimp only
    obtain ⟨lr', h1, h2, h3⟩ := ih (fun x hx => hok x (by simp [hx])) (fun x hx => hk x (by simp [hx]))
      ⟨some r.number, (r.number, num) :: s.startrow, (lr, num - (dget s.startrow lr).getD 0 - 1) :: s.nrows⟩ r.number rfl
      (num + 1 + r.body.length) num (by simp [dget])
    refine ⟨lr', h1, ?_, ?_⟩
    · rw [h2]; simp [dget, hrk]
    · have el : num + (r.header :: r.body ++ fileLines post).length = num + 1 + r.body.length + (fileLines post).length := by
        rw [List.length_append, List.length_cons]; omega
      rw [el, h3, if_neg hrk]
      rw [hp]
      simp only [dget, Option.getD_some]
      have : num - p - 1 = num - 1 - p := by omega
      rw [this]

/-- Every record of the file is found and read exactly: the lines handed to the fixed width reader are the lines of the record (of the
last one, should a number occur twice). -/
theorem records_exact (pre post : List Record) (r : Record) (h : ∀ x ∈ pre ++ r :: post, x.Ok) (hk : ∀ x ∈ post, x.number ≠ r.number) :
    ∃ startrow nrows, records (fileLines (pre ++ r :: post)) = .ok (startrow, nrows) ∧
      recordLines (fileLines (pre ++ r :: post)) startrow nrows r.number = some r.body := by
  have hpre : ∀ (l : List Record) (s : Scan) (num : ℕ) (rest : List Text), (∀ x ∈ l, x.Ok) →
      ∃ s', scanLines s num (fileLines l ++ rest) = scanLines s' (num + (fileLines l).length) rest := by
    intro l
    induction l with
    | nil => intro s num rest _; exact ⟨s, rfl⟩
    | cons x l ih =>
      intro s num rest hl
      have e : fileLines (x :: l) ++ rest = x.header :: x.body ++ (fileLines l ++ rest) := by
        show (x.header :: x.body ++ fileLines l) ++ rest = _
        rw [List.append_assoc]
      rw [e, scan_record s num x (hl x (by simp))]
      obtain ⟨s', hs'⟩ := ih ⟨some x.number, (x.number, num) :: s.startrow,
        match s.lr with | none => s.nrows | some lr => (lr, num - (dget s.startrow lr).getD 0 - 1) :: s.nrows⟩
        (num + 1 + x.body.length) rest (fun y hy => hl y (by simp [hy]))
      refine ⟨s', ?_⟩
      rw [hs']
      congr 1
      show _ = num + (x.header :: x.body ++ fileLines l).length
      rw [List.length_append, List.length_cons]
      omega
  have hr := h r (by simp)
  have hfl : fileLines (pre ++ r :: post) = fileLines pre ++ (r.header :: r.body ++ fileLines post) := by
    unfold fileLines; rw [List.flatMap_append, List.flatMap_cons]
  obtain ⟨s, hs⟩ := hpre pre ⟨none, [], []⟩ 0 (r.header :: r.body ++ fileLines post) (fun x hx => h x (by simp [hx]))
  rw [scan_record s _ r hr] at hs
  set s2 : Scan := ⟨some r.number, (r.number, 0 + (fileLines pre).length) :: s.startrow,
    match s.lr with | none => s.nrows | some lr => (lr, 0 + (fileLines pre).length - (dget s.startrow lr).getD 0 - 1) :: s.nrows⟩ with hs2
  obtain ⟨lr', h1, h2, h3⟩ := scan_post r.number post (fun x hx => h x (by simp [hx])) hk s2 r.number rfl
    (0 + (fileLines pre).length + 1 + r.body.length) (0 + (fileLines pre).length) (by simp [hs2, dget])
  rw [if_pos rfl] at h3
  unfold records
  dsimp only
  rw [hfl, hs, h1]
  dsimp only
  refine ⟨_, _, rfl, ?_⟩
  unfold recordLines
  rw [h2]
  have hstart : dget s2.startrow r.number = some (fileLines pre).length := by simp [hs2, dget]
  rw [hstart]
  dsimp only
  have hlen : (fileLines pre ++ (r.header :: r.body ++ fileLines post)).length =
      0 + (fileLines pre).length + 1 + r.body.length + (fileLines post).length := by
    rw [List.length_append, List.length_append, List.length_cons]; omega
  rw [hlen, h3, Option.getD_some]
  have hn : 0 + (fileLines pre).length + 1 + r.body.length - 1 - (0 + (fileLines pre).length) = r.body.length := by omega
  rw [hn]
  have hdrop : (fileLines pre ++ (r.header :: r.body ++ fileLines post)).drop ((fileLines pre).length + 1) = r.body ++ fileLines post := by
    rw [← List.drop_drop, List.drop_left, List.cons_append, List.drop_one, List.tail_cons]
  rw [hdrop, List.take_left]

example := records_exact [⟨"*U0001".toList, [" 21  1 2020".toList]⟩] [] ⟨"*U0100".toList, ["  1     0 123".toList]⟩
  (by intro x hx; unfold Record.Ok; simp only [List.mem_cons, List.cons_append, List.nil_append, List.not_mem_nil, or_false] at hx
      rcases hx with rfl | rfl <;> decide) (by simp)

/-- A record that is not in the file is not read: nothing is handed to the fixed width reader for it (and the other records are still read). -/
theorem missing_record (r : Record) (post : List Record) (h : ∀ x ∈ r :: post, x.Ok) (k : Text) (hk : ∀ x ∈ r :: post, x.number ≠ k) :
    ∃ startrow nrows, records (fileLines (r :: post)) = .ok (startrow, nrows) ∧
      recordLines (fileLines (r :: post)) startrow nrows k = none := by
  have e : fileLines (r :: post) = r.header :: r.body ++ fileLines post := rfl
  have hs := scan_record ⟨none, [], []⟩ 0 r (h r (by simp)) (fileLines post)
  obtain ⟨lr', h1, h2, -⟩ := scan_post k post (fun x hx => h x (by simp [hx])) (fun x hx => hk x (by simp [hx]))
    ⟨some r.number, [(r.number, 0)], []⟩ r.number rfl (0 + 1 + r.body.length) 0 (by simp [dget])
  unfold records
  dsimp only at hs ⊢
  rw [e, hs, h1]
  refine ⟨_, _, rfl, ?_⟩
  unfold recordLines
  rw [h2]
  have : dget [(r.number, 0)] k = none := by
    have := hk r (by simp)
    simp [dget, this]
  rw [this]

example := missing_record ⟨"*U0001".toList, [" 21  1 2020".toList]⟩ [⟨"*U0100".toList, ["  1     0 123".toList]⟩]
  (by intro x hx; unfold Record.Ok; simp only [List.mem_cons, List.not_mem_nil, or_false] at hx
      rcases hx with rfl | rfl <;> decide) "0300".toList (by decide)

/-- A file without any record raises NameError (UnboundLocalError). -/
theorem no_records (lines : List Text) (h : ∀ l ∈ lines, l.head? ≠ some '*') : records lines = .error .unboundLocal := by
  have := scan_body ⟨none, [], []⟩ 0 lines [] h
  rw [List.append_nil] at this
  unfold records
  rw [this]
  rfl

example := no_records ["abc".toList, "".toList] (by decide)

/-- Two lines make one row: row `k` holds the values of line `2k` and then those of line `2k + 1`. -/
theorem pairs (width : ℕ) (lines : List (List Fl)) (k : ℕ) (h : 2 * k + 1 < lines.length) :
    (pairRows width lines)[k]? = some (lines[2 * k]'(by omega) ++ lines[2 * k + 1]) := by
  induction k using Nat.strong_induction_on generalizing lines with
  | _ k ih =>
    match lines, h with
    | [], h => simp at h
    | [a], h => simp at h
    | a :: b :: rest, h =>
      rw [pairRows]
      cases k with
      | zero => rfl
      | succ k =>
        rw [List.getElem?_cons_succ]
        have hr := ih k (by omega) rest (by simp at h ⊢; omega)
        rw [hr]
        congr 1

example := pairs 1 [[Fl.fin 1], [Fl.fin 2], [Fl.fin 3], [Fl.fin 4]] 1 (by decide)

/-- LR0100: of the 13 values of each line, the first line gives GHI and DNI, the second DHI, downward long-wave radiation and weather. -/
theorem lr0100_row (a b : List Fl) (ha : a.length = 13) (hb : b.length = 13) :
    named lr0100Columns (a ++ b) =
      ["ghi", "ghi_std", "ghi_min", "ghi_max", "dni", "dni_std", "dni_min", "dni_max",
        "dhi", "dhi_std", "dhi_min", "dhi_max", "lwd", "lwd_std", "lwd_min", "lwd_max", "temp_air", "relative_humidity", "pressure"].zip
      ((a.drop 2).take 8 ++ b.drop 2) := by
  match a, ha with
  | [a0, a1, a2, a3, a4, a5, a6, a7, a8, a9, a10, a11, a12], _ =>
    match b, hb with
    | [b0, b1, b2, b3, b4, b5, b6, b7, b8, b9, b10, b11, b12], _ => simp [named, lr0100Columns]

example := lr0100_row (List.replicate 13 (Fl.fin 1)) (List.replicate 13 (Fl.fin 2)) (by simp) (by simp)

/-- LR0300: one line of 14 values. -/
theorem lr0300_row (a : List Fl) (ha : a.length = 14) : named lr0300Columns a =
      ((["gri", "lwu", "net_radiation"].map fun c => [c, c ++ "_std", c ++ "_min", c ++ "_max"]).flatten).zip (a.drop 2) := by
  match a, ha with
  | [a0, a1, a2, a3, a4, a5, a6, a7, a8, a9, a10, a11, a12, a13], _ => simp [named, lr0300Columns]

example := lr0300_row (List.replicate 14 (Fl.fin 1)) (by simp)

/-- LR0500: of the 14 values of each line, the first line gives UV-A and direct UV-B, the second global, diffuse and reflected UV-B. -/
theorem lr0500_row (a b : List Fl) (ha : a.length = 14) (hb : b.length = 14) :
    named lr0500Columns (a ++ b) =
      ["uva_global", "uva_global_std", "uva_global_min", "uva_global_max", "uvb_direct", "uvb_direct_std", "uvb_direct_min", "uvb_direct_max",
        "uvb_global", "uvb_global_std", "uvb_global_min", "uvb_global_max", "uvb_diffuse", "uvb_diffuse_std", "uvb_diffuse_min",
        "uvb_diffuse_max", "uvb_reflected", "uvb_reflected_std", "uvb_reflected_min", "uvb_reflected_max"].zip
      ((a.drop 2).take 8 ++ b.drop 2) := by
  match a, ha with
  | [a0, a1, a2, a3, a4, a5, a6, a7, a8, a9, a10, a11, a12, a13], _ =>
    match b, hb with
    | [b0, b1, b2, b3, b4, b5, b6, b7, b8, b9, b10, b11, b12, b13], _ => simp [named, lr0500Columns]

example := lr0500_row (List.replicate 14 (Fl.fin 1)) (List.replicate 14 (Fl.fin 2)) (by simp) (by simp)

/-- The fields of a line do not overlap and follow one another; their number fits the columns; the table that is returned when there
is nothing has the columns of the tables that are read. -/
theorem bsrn_layout :
    lr0100Specs.Pairwise (fun a b => a.2 ≤ b.1) ∧ (∀ p ∈ lr0100Specs, p.1 < p.2) ∧ 2 * lr0100Specs.length = lr0100Columns.length ∧
    lr0300Specs.Pairwise (fun a b => a.2 ≤ b.1) ∧ (∀ p ∈ lr0300Specs, p.1 < p.2) ∧ lr0300Specs.length = lr0300Columns.length ∧
    lr0500Specs.Pairwise (fun a b => a.2 ≤ b.1) ∧ (∀ p ∈ lr0500Specs, p.1 < p.2) ∧ 2 * lr0500Specs.length = lr0500Columns.length ∧
    (∀ columns : List String, columns ∈ [lr0100Columns, lr0300Columns, lr0500Columns] →
      emptyColumns (fun _ => columns) ["x"] = columns.filter (fun c => c ≠ "empty" ∧ c ≠ "day" ∧ c ≠ "minute")) := by
  decide +kernel

/-- BSRN coordinates count from the south pole and from the antimeridian. -/
theorem bsrn_coordinates (lat lon : ℝ) (h1 : 0 ≤ lat) (h2 : lat ≤ 180) (h3 : 0 ≤ lon) (h4 : lon ≤ 360) :
    ∃ a b, bsrnLatLon (Fl.fin lat) (Fl.fin lon) = (Fl.fin a, Fl.fin b) ∧ a = lat - 90 ∧ b = lon - 180 ∧ |a| ≤ 90 ∧ |b| ≤ 180 := by
  have e90 : (90 : Fl) = Fl.fin 90 := Fl.ofNat_eq
  have e180 : (180 : Fl) = Fl.fin 180 := Fl.ofNat_eq
  refine ⟨lat - 90, lon - 180, ?_, rfl, rfl, abs_le.mpr ⟨by linarith, by linarith⟩, abs_le.mpr ⟨by linarith, by linarith⟩⟩
  unfold bsrnLatLon
  rw [e90, e180, Fl.fin_sub, Fl.fin_sub]

example : (⟨"*U0100".toList, ["  1     0 123".toList]⟩ : Record).Ok := by unfold Record.Ok; decide

end Pvlib.Props.IoTables
