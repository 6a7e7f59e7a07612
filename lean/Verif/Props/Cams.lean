import Verif.Model.IoRemote
import Verif.Base.Lemmas
import Verif.Props.Panond
import Mathlib.Tactic.FieldSimp
import Mathlib.Tactic.Linarith

/-! # Property C165: CAMS files -/

namespace Pvlib.Props.Cams
open Pvlib Pvlib.Calendar Pvlib.Panond Pvlib.IoRemote Pvlib.Props.Panond Fl

/-! ### The metadata section -/

/-- The text contains a colon followed by a blank. -/
def HasSep (s : Text) : Prop := [':', ' '] <:+: s

/-- A line of the metadata section: `# key: value`, possibly followed by another `: ` and more; or a line without `: `. -/
inductive Line where
  | entry (marks key value more : Text)
  | remark (line : Text)

/-- The text of the line. -/
def Line.text : Line → Text
  | .entry marks key value more => marks ++ (key ++ ':' :: ' ' :: (value ++ more))
  | .remark line => line

/-- Well formed: the marks are number signs and blanks, the key does not start with these, neither key nor value contain `: `; and the
line is not the line of column names. -/
def Line.Ok (l : Line) : Prop :=
  ¬ (observation <+: l.text) ∧ match l with
  | .entry marks key value more =>
    (∀ c ∈ marks, c = '#' ∨ c = ' ') ∧ (∀ c ∈ key.head?, c ≠ '#' ∧ c ≠ ' ') ∧ ¬ HasSep key ∧ ¬ HasSep value ∧
      (more = [] ∨ ∃ r, more = ':' :: ' ' :: r)
  | .remark line => ¬ HasSep line

/-- The entry a line makes. -/
def Line.entry? : Line → Option (Text × Text)
  | .entry _ key value _ => some (key, value)
  | .remark _ => none

/-- The value of the last entry with this key. -/
def lastValue (key : Text) : List Line → Option Text
  | [] => none
  | l :: ls => match lastValue key ls with
    | some v => some v
    | none => match l.entry? with
      | some (k, v) => if k = key then some v else none
      | none => none

/-- The value filed under a key. -/
def filed (metadata : List (Text × Text)) (key : Text) : Option Text := (metadata.find? fun p => p.1 = key).map Prod.snd

private theorem splitColon_ne (s : Text) : splitColon s ≠ [] := by
  unfold splitColon
  split
  · simp
  · simp
  · split
    · simp
    · split <;> simp

private theorem sep_tail {c : Char} {s : Text} (h : ¬ HasSep (c :: s)) : ¬ HasSep s := fun h' => h (List.infix_cons h')

private theorem splitColon_none (s : Text) (h : ¬ HasSep s) : splitColon s = [s] := by
  match s, h with
  | [], _ => rw [splitColon]
  | [c], _ => rw [splitColon]
  | c :: d :: rest, h =>
    have hn : ¬ (c = ':' ∧ d = ' ') := by
      rintro ⟨rfl, rfl⟩
      exact h ⟨[], rest, rfl⟩
    rw [splitColon, if_neg hn, splitColon_none (d :: rest) (sep_tail h)]

private theorem splitColon_append (k v : Text) (h : ¬ HasSep k) : splitColon (k ++ ':' :: ' ' :: v) = k :: splitColon v := by
  match k, h with
  | [], _ => rw [List.nil_append, splitColon, if_pos ⟨rfl, rfl⟩]
  | [c], _ =>
    rw [List.singleton_append, splitColon, if_neg (by simp), splitColon, if_pos ⟨rfl, rfl⟩]
  | c :: d :: rest, h =>
    have hn : ¬ (c = ':' ∧ d = ' ') := by
      rintro ⟨rfl, rfl⟩
      exact h ⟨[], rest, rfl⟩
    rw [List.cons_append, List.cons_append, splitColon, if_neg hn]
    have := splitColon_append (d :: rest) v (sep_tail h)
    rw [List.cons_append] at this
    rw [this]

private theorem sep_marks {marks key : Text} (hm : ∀ c ∈ marks, c = '#' ∨ c = ' ') (hk : ¬ HasSep key) : ¬ HasSep (marks ++ key) := by
  induction marks with
  | nil => exact hk
  | cons c cs ih =>
    intro h
    rw [List.cons_append] at h
    rcases List.infix_cons_iff.mp h with h | h
    · obtain ⟨t, ht⟩ := h
      have : c = ':' := by simpa using (List.cons.inj ht).1.symm
      rcases hm c (by simp) with h' | h' <;> rw [this] at h' <;> simp at h'
    · exact ih (fun c hc => hm c (by simp [hc])) h

private theorem lstripHash_marks {marks key : Text} (hm : ∀ c ∈ marks, c = '#' ∨ c = ' ') (hk : ∀ c ∈ key.head?, c ≠ '#' ∧ c ≠ ' ') :
    lstripHash (marks ++ key) = key := by
  unfold lstripHash
  induction marks with
  | nil =>
    cases key with
    | nil => rfl
    | cons c cs =>
      have := hk c (by simp)
      rw [List.nil_append, List.dropWhile_cons_of_neg (by simp [this.1, this.2])]
  | cons c cs ih =>
    rw [List.cons_append, List.dropWhile_cons_of_pos (by rcases hm c (by simp) with h | h <;> simp [h])]
    exact ih (fun c hc => hm c (by simp [hc]))

private theorem filed_put (d : List (Text × Text)) (k v key : Text) :
    filed (put d k v) key = if k = key then some v else filed d key := by
  induction d with
  | nil =>
    unfold filed put
    by_cases h : k = key <;> simp [h]
  | cons p d ih =>
    obtain ⟨k', v'⟩ := p
    unfold put
    by_cases h : k' = k
    · subst h
      rw [if_pos rfl]
      unfold filed
      by_cases h2 : k' = key <;> simp [h2]
    · rw [if_neg h]
      unfold filed at ih ⊢
      by_cases h2 : k' = key
      · have : ¬ k = key := fun e => h (h2.trans e.symm)
        simp [h2, this]
      · simpa [h2] using ih

private theorem starts {s p : Text} : startsWith s p = true ↔ p <+: s := List.isPrefixOf_iff_prefix

private theorem loop_cons (fuel : ℕ) (line : Text) (rest : List Text) (md : List (Text × Text)) :
    camsLoop (fuel + 1) (line :: rest) md = if startsWith line observation then some ⟨splitOn ';' (lstripHash line), md, rest⟩
      else match splitColon line with
        | key :: value :: _ => camsLoop fuel rest (put md (lstripHash key) value)
        | _ => camsLoop fuel rest md := rfl

private theorem loop_step (l : Line) (h : l.Ok) (fuel : ℕ) (rest : List Text) (md : List (Text × Text)) :
    camsLoop (fuel + 1) (l.text :: rest) md = camsLoop fuel rest (match l.entry? with | some (k, v) => put md k v | none => md) := by
  obtain ⟨h0, h⟩ := h
  rw [loop_cons, if_neg (by rw [starts]; exact h0)]
  cases l with
  | remark line =>
    dsimp only [Line.text, Line.entry?]
    rw [splitColon_none _ h]
  | entry marks key value more =>
    obtain ⟨hm, hk, hk2, hv, hmore⟩ := h
    dsimp only [Line.text, Line.entry?]
    rw [← List.append_assoc, splitColon_append _ _ (sep_marks hm hk2)]
    have : ∃ r, splitColon (value ++ more) = value :: r := by
      rcases hmore with rfl | ⟨r, rfl⟩
      · exact ⟨[], by rw [List.append_nil, splitColon_none _ hv]⟩
      · exact ⟨_, splitColon_append _ _ hv⟩
    obtain ⟨r, hr⟩ := this
    rw [hr]
    dsimp only
    rw [lstripHash_marks hm hk]

/-- Columns are separated by semicolons. -/
def joined : List Text → Text
  | [] => []
  | c :: cs => ';' :: (c ++ joined cs)

private theorem split_joined (cs : List Text) (h : ∀ c ∈ cs, ';' ∉ c) (c : Text) (hc : ';' ∉ c) :
    splitOn ';' (c ++ joined cs) = c :: cs := by
  induction cs generalizing c with
  | nil =>
    rw [joined, List.append_nil]
    exact splitBy_none _ _ (fun x hx => by simpa using fun e : x = ';' => hc (e ▸ hx))
  | cons d ds ih =>
    rw [joined]
    unfold splitOn at ih ⊢
    rw [splitBy_append _ _ _ _ (fun x hx => by simpa using fun e : x = ';' => hc (e ▸ hx)) (by simp)]
    rw [ih (fun c hc => h c (by simp [hc])) d (h d (by simp))]

/-- The line with the column names. -/
def columnLine (columns : List Text) : Text := observation ++ joined columns

/-- `read_cams`: for a file whose metadata section ends with the line of column names, the section is read completely: the column names
are "Observation period" and those of the line; the metadata are, for every key, the value of the last line with that key; and all
following lines are left for the table. -/
theorem header (lines : List Line) (h : ∀ l ∈ lines, l.Ok) (columns : List Text) (hc : ∀ c ∈ columns, ';' ∉ c) (rest : List Text)
    (fuel : ℕ) (hf : lines.length < fuel) :
    ∃ r, camsLoop fuel (lines.map Line.text ++ columnLine columns :: rest) [] = some r ∧
      r.names = "Observation period".toList :: columns ∧ (∀ key, filed r.metadata key = lastValue key lines) ∧ r.rest = rest := by
  suffices ∀ md, ∃ r, camsLoop fuel (lines.map Line.text ++ columnLine columns :: rest) md = some r ∧
      r.names = "Observation period".toList :: columns ∧
      (∀ key, filed r.metadata key = (match lastValue key lines with | some v => some v | none => filed md key)) ∧ r.rest = rest by
    obtain ⟨r, h1, h2, h3, h4⟩ := this []
    refine ⟨r, h1, h2, fun key => ?_, h4⟩
    rw [h3]
    cases lastValue key lines <;> rfl
  induction lines generalizing fuel with
  | nil =>
    intro md
    obtain ⟨f, rfl⟩ : ∃ f, fuel = f + 1 := ⟨fuel - 1, by simp at hf; omega⟩
    refine ⟨⟨splitOn ';' (lstripHash (columnLine columns)), md, rest⟩, ?_, ?_, fun key => ?_, ?_⟩
    · rw [List.map_nil, List.nil_append, loop_cons, if_pos (starts.mpr (show observation <+: columnLine columns from ⟨_, rfl⟩))]
    · show splitOn ';' (lstripHash (columnLine columns)) = _
      have e : columnLine columns = "# ".toList ++ ("Observation period".toList ++ joined columns) := rfl
      rw [e, lstripHash_marks (by decide) (by intro c hc; simp at hc; subst hc; decide)]
      exact split_joined _ hc _ (by decide)
    · rfl
    · rfl
  | cons l ls ih =>
    intro md
    obtain ⟨f, rfl⟩ : ∃ f, fuel = f + 1 := ⟨fuel - 1, by simp at hf; omega⟩
    rw [List.map_cons, List.cons_append, loop_step l (h l (by simp))]
    obtain ⟨r, h1, h2, h3, h4⟩ := ih (fun l hl => h l (by simp [hl])) f (by simp at hf; omega)
      (match l.entry? with | some (k, v) => put md k v | none => md)
    refine ⟨r, h1, h2, fun key => ?_, h4⟩
    rw [h3, lastValue]
    cases lastValue key ls with
    | some v => rfl
    | none =>
      cases l.entry? with
      | none => rfl
      | some p =>
        obtain ⟨k, v⟩ := p
        dsimp only
        rw [filed_put]
        by_cases hk : k = key <;> simp [hk]

/-- But without such a line reading never ends: after any number of passes the loop is still running (at the end of the file `readline`
delivers empty lines). -/
theorem no_column_line_never_ends (lines : List Text) (h : ∀ l ∈ lines, ¬ (observation <+: l)) (fuel : ℕ) (md : List (Text × Text)) :
    camsLoop fuel lines md = none := by
  induction fuel generalizing lines md with
  | zero => rfl
  | succ fuel ih =>
    rw [camsLoop]
    have hh : ¬ startsWith (lines.headD []) observation = true := by
      rw [starts]
      cases lines with
      | nil => decide
      | cons l ls => exact h l (by simp)
    have ht : ∀ l ∈ lines.tail, ¬ (observation <+: l) := fun l hl => h l (List.mem_of_mem_tail hl)
    rw [if_neg hh]
    split
    · exact ih _ ht _
    · exact ih _ ht _

example (fuel md) := no_column_line_never_ends ["# Title: CAMS".toList, "2020-01-01T00:00;1;2".toList] (by
  intro l hl; simp only [List.mem_cons, List.not_mem_nil, or_false] at hl; rcases hl with rfl | rfl <;> decide) fuel md

/-! ### The index -/

/-- Sub-daily data: the index is the UTC time of the beginning of the period (label 'left' or none) or of its end ('right'). -/
theorem index_subdaily {step : String} (h : step = "1min" ∨ step = "15min" ∨ step = "1h") (start stop : Stamp) :
    camsIndex none step start stop = .ok (.utc start) ∧ camsIndex (some "left") step start stop = .ok (.utc start) ∧
      camsIndex (some "right") step start stop = .ok (.utc stop) := by
  rcases h with rfl | rfl | rfl <;> simp [camsIndex]

example := index_subdaily (step := "15min") (by simp) 0 15

/-- Daily data of the day `d`, from midnight to midnight: the index is the date of the day (label 'left' or none), or the next
date ('right'). -/
theorem index_daily {d : Date} (h : d.Valid) :
    camsIndex none "1d" (stamp d.ordinal 0) (stamp d.next.ordinal 0) = .ok (.date (stamp d.ordinal 0)) ∧
      camsIndex (some "left") "1d" (stamp d.ordinal 0) (stamp d.next.ordinal 0) = .ok (.date (stamp d.ordinal 0)) ∧
      camsIndex (some "right") "1d" (stamp d.ordinal 0) (stamp d.next.ordinal 0) = .ok (.date (stamp d.next.ordinal 0)) := by
  have e : ∀ n, 1440 * (stamp n 0 / 1440) = stamp n 0 := fun n => by unfold stamp; omega
  refine ⟨?_, ?_, ?_⟩ <;> simp [camsIndex, e]

example := index_daily (d := ⟨2020, 2, 29⟩) (by decide)

/-- The first day of the month after the month `m` of year `y`. -/
def monthAfter (y m : ℕ) : Date := if m < 12 then ⟨y, m + 1, 1⟩ else ⟨y + 1, 1, 1⟩

/-- Monthly data of the month `m` of year `y`, from the beginning of the first day to the beginning of the next month: the index is the
first day of the month (label 'left'), or the last day of the same month ('right' or none). -/
theorem index_monthly {y m : ℕ} (hy : 1 ≤ y) (h1 : 1 ≤ m) (h2 : m ≤ 12) :
    let start := stamp (⟨y, m, 1⟩ : Date).ordinal 0
    let stop := stamp (monthAfter y m).ordinal 0
    camsIndex (some "left") "1M" start stop = .ok (.date start) ∧
      camsIndex (some "right") "1M" start stop = .ok (.date (stamp (⟨y, m, daysInMonth y m⟩ : Date).ordinal 0)) ∧
      camsIndex none "1M" start stop = .ok (.date (stamp (⟨y, m, daysInMonth y m⟩ : Date).ordinal 0)) := by
  intro start stop
  have e : ∀ n, 1440 * (stamp n 0 / 1440) = stamp n 0 := fun n => by unfold stamp; omega
  have hv : (⟨y, m, daysInMonth y m⟩ : Date).Valid := by
    have := daysInMonth_pos (y := y) h1 h2
    exact ⟨hy, h1, h2, by show 1 ≤ daysInMonth y m; omega, le_refl _⟩
  have hn : monthAfter y m = (⟨y, m, daysInMonth y m⟩ : Date).next := by
    unfold monthAfter Date.next
    simp
  have hs : stop - 1440 = stamp (⟨y, m, daysInMonth y m⟩ : Date).ordinal 0 := by
    show stamp (monthAfter y m).ordinal 0 - 1440 = _
    rw [hn, next_ordinal hv]
    unfold stamp
    omega
  refine ⟨?_, ?_, ?_⟩
  · simp [camsIndex, start, e]
  · rw [← hs]; simp [camsIndex, stop, e]
  · rw [← hs]; simp [camsIndex, stop, e]

/-- With any other label, daily and monthly data fail, and sub-daily data are returned with row numbers for index. -/
theorem index_unknown_label {label : String} (h : label ≠ "left" ∧ label ≠ "right") (step : String) (start stop : Stamp) :
    camsIndex (some label) step start stop = if step = "1d" ∨ step = "1M" then .error .attributeError else .ok .rowNumber := by
  unfold camsIndex
  simp [h.1, h.2]

example := index_unknown_label (label := "center") (by decide) "1d" 0 1440

/-! ### The values -/

/-- Hours of a period. -/
noncomputable def hours (step : String) (start stop : Stamp) : Option ℝ :=
  if step = "1min" then some (1 / 60) else if step = "15min" then some (1 / 4) else if step = "1h" then some 1
  else if step = "1d" then some 24 else if step = "1M" then some (((stop : ℝ) - start) / 60) else none

/-- `integrated=True`: the values are those of the file. -/
theorem integrated (step column : String) (start stop : Stamp) (x : Fl) : camsValue true step column start stop x = .ok x := rfl

/-- `integrated=False`: the irradiation columns are divided by the length of the period in hours (mean irradiance times length is the
irradiation of the file), and all others are those of the file. -/
theorem mean {step : String} {start stop : Stamp} {h : ℝ} (hh : hours step start stop = some h) (hlt : start < stop) (column : String)
    (x : ℝ) : 0 < h ∧ ∃ y : ℝ, camsValue false step column start stop (fin x) = .ok (fin y) ∧
      (column ∈ camsIntegrated → y * h = x) ∧ (column ∉ camsIntegrated → y = x) := by
  have e60 : (60 : Fl) = fin 60 := ofNat_eq
  have e15 : (15 : Fl) = fin 15 := ofNat_eq
  have e24 : (24 : Fl) = fin 24 := ofNat_eq
  have hlt' : (0 : ℝ) < stop - start := by
    have : (start : ℝ) < stop := by exact_mod_cast hlt
    linarith
  by_cases hM : step = "1M"
  · subst hM
    have : h = ((stop : ℝ) - start) / 60 := by
      unfold hours at hh
      simpa using hh.symm
    have hpos : 0 < h := by rw [this]; positivity
    refine ⟨hpos, ?_⟩
    unfold camsValue
    rw [if_neg (by simp), if_pos rfl]
    by_cases hc : column ∈ camsIntegrated
    · refine ⟨x / h, ?_, fun _ => by field_simp, fun h' => absurd hc h'⟩
      rw [if_pos hc, e60, fin_sub, fin_mul, fin_div (by norm_num), fin_div (by norm_num), fin_div (by positivity), this]
      congr 3
      ring
    · exact ⟨x, by rw [if_neg hc], fun h' => absurd h' hc, fun _ => rfl⟩
  · have key : ∃ H : Fl, stepHours step = some H ∧ H = fin h ∧ 0 < h := by
      unfold hours at hh
      unfold stepHours
      split_ifs at hh ⊢ with h1 h2 h3 h4
      · refine ⟨_, rfl, ?_, ?_⟩
        · rw [e60, one_eq, fin_div (by norm_num)]; congr 1; exact Option.some.inj hh
        · rw [← Option.some.inj hh]; norm_num
      · refine ⟨_, rfl, ?_, ?_⟩
        · rw [e60, e15, fin_div (by norm_num), ← Option.some.inj hh]; norm_num
        · rw [← Option.some.inj hh]; norm_num
      · refine ⟨_, rfl, ?_, ?_⟩
        · rw [one_eq]; congr 1; exact Option.some.inj hh
        · rw [← Option.some.inj hh]; norm_num
      · refine ⟨_, rfl, ?_, ?_⟩
        · rw [e24]; congr 1; exact Option.some.inj hh
        · rw [← Option.some.inj hh]; norm_num
    obtain ⟨H, h1, h2, hpos⟩ := key
    refine ⟨hpos, ?_⟩
    unfold camsValue
    rw [if_neg (by simp), if_neg hM, h1]
    dsimp only
    by_cases hc : column ∈ camsIntegrated
    · refine ⟨x / h, ?_, fun _ => by field_simp, fun h' => absurd hc h'⟩
      rw [if_pos hc, h2, fin_div hpos.ne']
    · exact ⟨x, by rw [if_neg hc], fun h' => absurd h' hc, fun _ => rfl⟩

example := mean (step := "15min") (start := 0) (stop := 15) (h := 1 / 4) (by simp [hours]) (by decide) "GHI" 120

/-- Every time step of CAMS data has a length. -/
theorem every_step_has_hours (start stop : Stamp) : ∀ p ∈ summationPeriods, (hours p.2 start stop).isSome := by
  simp [summationPeriods, hours]

/-! ### Examples -/

example : ∃ l : Line, l.Ok ∧ l.entry? = some ("Latitude (positive North, ISO 19115)".toList, "55.7906".toList) := by
  refine ⟨.entry "# ".toList "Latitude (positive North, ISO 19115)".toList "55.7906".toList [], ⟨by decide, by decide, ?_, ?_, ?_, .inl rfl⟩, rfl⟩
  · intro c hc; simp at hc; subst hc; decide
  · unfold HasSep; decide
  · unfold HasSep; decide

example : camsIndex none "1M" (stamp (⟨2020, 2, 1⟩ : Date).ordinal 0) (stamp (⟨2020, 3, 1⟩ : Date).ordinal 0) =
    .ok (.date (stamp (⟨2020, 2, 29⟩ : Date).ordinal 0)) := (index_monthly (y := 2020) (m := 2) (by norm_num) (by norm_num) (by norm_num)).2.2

example : "GHI" ∈ camsIntegrated ∧ "Reliability" ∉ camsIntegrated := by simp [camsIntegrated]

end Pvlib.Props.Cams
