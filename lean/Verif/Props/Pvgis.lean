import Verif.Model.IoRemote
import Verif.Props.Panond
import Verif.Props.Spec
import Verif.Props.Tmy3
import Mathlib.Data.List.Perm.Basic
import Mathlib.Tactic.Linarith

/-! # Properties C166 and C167: PVGIS files and typical years -/

namespace Pvlib.Props.Pvgis
open Pvlib Pvlib.Calendar Pvlib.Panond Pvlib.IoIndex Pvlib.IoRemote Pvlib.Props.Panond Pvlib.Props.Tmy3

/-! ### C166: sections of the files -/

/-- A line that is only white space. -/
def Blank (line : Text) : Prop := strip line = []

/-- A line `key:value`, possibly with a second colon and more text. -/
structure Entry where
  key : Text
  value : Text
  more : Option Text

/-- The text of the line. -/
def Entry.text (e : Entry) : Text := e.key ++ ':' :: (e.value ++ (match e.more with | none => [] | some m => ':' :: m))

/-- No colon in key and value. -/
def Entry.Ok (e : Entry) : Prop := ':' ∉ e.key ∧ ':' ∉ e.value

/-- The value of the last entry with this key, without surrounding white space. -/
def lastValue (key : Text) : List Entry → Option Text
  | [] => none
  | e :: es => match lastValue key es with
    | some v => some v
    | none => if e.key = key then some (strip e.value) else none

/-- The value filed under a key. -/
def filed (d : List (Text × Text)) (key : Text) : Option Text := (d.find? fun p => p.1 = key).map Prod.snd

private theorem filed_put (d : List (Text × Text)) (k v key : Text) :
    filed (put d k v) key = if k = key then some v else filed d key := by
  induction d with
  | nil =>
    unfold filed put
    by_cases h : k = key <;> simp [h]
  | cons p d ih =>
    obtain ⟨k', v'⟩ := p
    unfold put
    by_cases h : k' = k
    · subst h
      rw [if_pos rfl]
      unfold filed
      by_cases h2 : k' = key <;> simp [h2]
    · rw [if_neg h]
      unfold filed at ih ⊢
      by_cases h2 : k' = key
      · have : ¬ k = key := fun e => h (h2.trans e.symm)
        simp [h2, this]
      · simpa [h2] using ih

private theorem split_none {s : Text} {c : Char} (h : c ∉ s) : splitOn c s = [s] :=
  splitBy_none _ _ (fun x hx => by simpa using fun e : x = c => h (e ▸ hx))

private theorem split_cons {s t : Text} {c : Char} (h : c ∉ s) : splitOn c (s ++ c :: t) = s :: splitOn c t :=
  splitBy_append _ _ _ _ (fun x hx => by simpa using fun e : x = c => h (e ▸ hx)) (by simp)

private theorem split_entry {e : Entry} (h : e.Ok) : ∃ r, splitOn ':' e.text = e.key :: e.value :: r := by
  unfold Entry.text
  rw [split_cons h.1]
  cases e.more with
  | none => exact ⟨[], by rw [List.append_nil, split_none h.2]⟩
  | some m => exact ⟨_, by dsimp only; rw [split_cons h.2]⟩

private theorem starts {s p : Text} : startsWith s p = true ↔ p <+: s := List.isPrefixOf_iff_prefix

/-- A line of the metadata section: an entry that does not look like the header, or a blank line (`none`). -/
inductive MetaLine where
  | entry (e : Entry)
  | blank (line : Text)

/-- The text of the line. -/
def MetaLine.text : MetaLine → Text
  | .entry e => e.text
  | .blank l => l

/-- Well formed. -/
def MetaLine.Ok (l : MetaLine) : Prop :=
  ¬ (timeHeader <+: l.text) ∧ match l with
  | .entry e => e.Ok ∧ ¬ Blank e.text
  | .blank t => Blank t

/-- The entries of the lines. -/
def entries : List MetaLine → List Entry
  | [] => []
  | .entry e :: ls => e :: entries ls
  | .blank _ :: ls => entries ls

private theorem inputs_of (ls : List MetaLine) (h : ∀ l ∈ ls, l.Ok) (head : Text) (hh : timeHeader <+: head) (rest : List Text)
    (md : List (Text × Text)) : ∃ md', pvgisInputs (ls.map MetaLine.text ++ head :: rest) md = .ok (md', splitOn ',' (strip head), rest) ∧
      ∀ key, filed md' key = (match lastValue key (entries ls) with | some v => some v | none => filed md key) := by
  induction ls generalizing md with
  | nil =>
    refine ⟨md, ?_, fun key => rfl⟩
    rw [List.map_nil, List.nil_append, pvgisInputs, if_pos (starts.mpr hh)]
  | cons l ls ih =>
    obtain ⟨h0, hl⟩ := h l (by simp)
    have ih := ih (fun l hl => h l (by simp [hl]))
    rw [List.map_cons, List.cons_append, pvgisInputs, if_neg (by rw [starts]; exact h0)]
    cases l with
    | blank t =>
      have hb : strip t = [] := hl
      rw [if_neg (by simpa [MetaLine.text] using hb)]
      exact ih md
    | entry e =>
      obtain ⟨he, hb⟩ := hl
      rw [if_pos (show strip (MetaLine.entry e).text ≠ [] from hb)]
      obtain ⟨r, hr⟩ := split_entry he
      have : splitOn ':' (MetaLine.entry e).text = e.key :: e.value :: r := hr
      rw [this]
      obtain ⟨md', h1, h2⟩ := ih (put md e.key (strip e.value))
      refine ⟨md', h1, fun key => ?_⟩
      rw [h2, entries, lastValue]
      cases lastValue key (entries ls) with
      | some v => rfl
      | none =>
        dsimp only
        rw [filed_put]
        by_cases hk : e.key = key <;> simp [hk]

private theorem rows_of (rows : List Text) (h : ∀ r ∈ rows, ¬ Blank r) (rest : List Text) (blank : Text) (hb : Blank blank) :
    pvgisRows (rows ++ blank :: rest) = (rows.map fun r => splitOn ',' (strip r), rest) ∧
      pvgisRows rows = (rows.map fun r => splitOn ',' (strip r), []) := by
  induction rows with
  | nil =>
    constructor
    · rw [List.nil_append, pvgisRows, if_pos (show strip blank = [] from hb)]; rfl
    · rfl
  | cons r rs ih =>
    obtain ⟨h1, h2⟩ := ih (fun l hl => h l (by simp [hl]))
    have hr : ¬ strip r = [] := h r (by simp)
    constructor
    · rw [List.cons_append, pvgisRows, if_neg hr, h1]; rfl
    · rw [pvgisRows, if_neg hr, h2]; rfl

/-- A line after the table: an entry, or a line without colon. -/
inductive NoteLine where
  | entry (e : Entry)
  | other (line : Text)

/-- The text of the line. -/
def NoteLine.text : NoteLine → Text
  | .entry e => e.text
  | .other l => l

/-- Well formed. -/
def NoteLine.Ok : NoteLine → Prop
  | .entry e => e.Ok
  | .other l => ':' ∉ l

/-- The entries of the lines. -/
def notes : List NoteLine → List Entry
  | [] => []
  | .entry e :: ls => e :: notes ls
  | .other _ :: ls => notes ls

private theorem descriptions_of (ls : List NoteLine) (h : ∀ l ∈ ls, l.Ok) (d : List (Text × Text)) (key : Text) :
    filed (pvgisDescriptions (ls.map NoteLine.text) d) key = (match lastValue key (notes ls) with | some v => some v | none => filed d key) := by
  induction ls generalizing d with
  | nil => rfl
  | cons l ls ih =>
    have hl := h l (by simp)
    have ih := ih (fun l hl => h l (by simp [hl]))
    rw [List.map_cons, pvgisDescriptions]
    cases l with
    | other t =>
      have ht : ':' ∉ t := hl
      have : splitOn ':' (NoteLine.other t).text = [t] := split_none ht
      rw [this]
      exact ih d
    | entry e =>
      obtain ⟨r, hr⟩ := split_entry (e := e) hl
      have : splitOn ':' (NoteLine.entry e).text = e.key :: e.value :: r := hr
      rw [this]
      dsimp only
      rw [ih, notes, lastValue]
      cases lastValue key (notes ls) with
      | some v => rfl
      | none =>
        dsimp only
        rw [filed_put]
        by_cases hk : e.key = key <;> simp [hk]

/-- `read_pvgis_hourly`, CSV: a file of metadata lines, a header line starting with 'time,', data lines, a blank line and notes is taken
apart into exactly these: the inputs are the values of the last metadata line with each key (what was there before for other keys), the
names are the fields of the header, there is one row per data line with its fields, the descriptions are the values of the last note
with each key.  In all values text after a second colon is lost. -/
theorem hourly (mls : List MetaLine) (hm : ∀ l ∈ mls, l.Ok) (head : Text) (hh : timeHeader <+: head) (rows : List Text)
    (hr : ∀ r ∈ rows, ¬ Blank r) (blank : Text) (hb : Blank blank) (nls : List NoteLine) (hn : ∀ l ∈ nls, l.Ok) (md : List (Text × Text)) :
    ∃ r, pvgisHourlyCsv (mls.map MetaLine.text ++ head :: (rows ++ blank :: nls.map NoteLine.text)) md = .ok r ∧
      (∀ key, filed r.inputs key = (match lastValue key (entries mls) with | some v => some v | none => filed md key)) ∧
      r.names = splitOn ',' (strip head) ∧ r.rows = rows.map (fun l => splitOn ',' (strip l)) ∧
      ∀ key, filed r.descriptions key = lastValue key (notes nls) := by
  obtain ⟨md', h1, h2⟩ := inputs_of mls hm head hh (rows ++ blank :: nls.map NoteLine.text) md
  refine ⟨⟨md', splitOn ',' (strip head), rows.map (fun l => splitOn ',' (strip l)), pvgisDescriptions (nls.map NoteLine.text) []⟩, ?_, h2, rfl, rfl,
    fun key => ?_⟩
  · unfold pvgisHourlyCsv
    rw [h1]
    dsimp only
    rw [(rows_of rows hr _ blank hb).1]
  · dsimp only
    rw [descriptions_of nls hn]
    cases lastValue key (notes nls) <;> rfl

example := hourly [.entry ⟨"Slope".toList, " 30 deg.\r".toList, none⟩, .blank "\r\n".toList]
  (by intro l hl
      simp only [List.mem_cons, List.not_mem_nil, or_false] at hl
      rcases hl with rfl | rfl
      · exact ⟨by decide, ⟨by decide, by decide⟩, by unfold Blank; decide⟩
      · exact ⟨by decide, by show Blank _; unfold Blank; decide⟩)
  "time,P,Int\r\n".toList (by decide) ["20160101:0000,1,0\r\n".toList] (by simp only [List.mem_singleton, forall_eq]; unfold Blank; decide)
  "\r\n".toList (by unfold Blank; decide) [.entry ⟨"P".toList, " PV power (W)\r\n".toList, none⟩]
  (by simp only [List.mem_singleton, forall_eq]; exact ⟨by decide, by decide⟩) []

/-- The file may end with the table. -/
theorem hourly_no_notes (mls : List MetaLine) (hm : ∀ l ∈ mls, l.Ok) (head : Text) (hh : timeHeader <+: head) (rows : List Text)
    (hr : ∀ r ∈ rows, ¬ Blank r) (md : List (Text × Text)) :
    ∃ r, pvgisHourlyCsv (mls.map MetaLine.text ++ head :: rows) md = .ok r ∧ r.names = splitOn ',' (strip head) ∧
      r.rows = rows.map (fun l => splitOn ',' (strip l)) ∧ r.descriptions = [] := by
  obtain ⟨md', h1, h2⟩ := inputs_of mls hm head hh rows md
  refine ⟨⟨md', splitOn ',' (strip head), rows.map (fun l => splitOn ',' (strip l)), []⟩, ?_, rfl, rfl, rfl⟩
  unfold pvgisHourlyCsv
  rw [h1]
  dsimp only
  rw [(rows_of rows hr [] [] rfl).2]
  rfl

example := hourly_no_notes [.blank "\r\n".toList]
  (by intro l hl
      rw [List.mem_singleton.mp hl]
      exact ⟨by decide, by show Blank _; unfold Blank; decide⟩)
  "time,P,Int\r\n".toList (by decide) ["20160101:0000,1,0\r\n".toList] (by simp only [List.mem_singleton, forall_eq]; unfold Blank; decide) []

open Classical in
/-- A file without header line is refused: with ValueError at its end, or before, at a line that is not blank and has no colon, with
IndexError. -/
theorem hourly_no_header (lines : List Text) (h : ∀ l ∈ lines, ¬ (timeHeader <+: l)) (md : List (Text × Text)) :
    pvgisHourlyCsv lines md = .error (if ∃ l ∈ lines, ¬ Blank l ∧ ':' ∉ l then .indexError else .valueError) := by
  have : pvgisInputs lines md = .error (if ∃ l ∈ lines, ¬ Blank l ∧ ':' ∉ l then .indexError else .valueError) := by
    induction lines generalizing md with
    | nil => simp [pvgisInputs]
    | cons l ls ih =>
      have h0 := h l (by simp)
      have ih := fun md => ih (fun l hl => h l (by simp [hl])) md
      rw [pvgisInputs, if_neg (by rw [starts]; exact h0)]
      by_cases hb : strip l = []
      · rw [if_neg (by simpa using hb), ih]
        congr 2
        simp [Blank, hb]
      · rw [if_pos (by simpa using hb)]
        by_cases hc : ':' ∈ l
        · obtain ⟨a, b, rfl, ha⟩ := List.eq_append_cons_of_mem hc
          rw [split_cons ha]
          have : splitOn ':' b ≠ [] := by
            unfold splitOn
            cases b with
            | nil => simp [splitBy]
            | cons x xs =>
              unfold splitBy
              by_cases hx : x = ':'
              · simp [hx]
              · simp only [hx]
                cases splitBy (· = ':') xs <;> simp
          obtain ⟨y, ys, hy⟩ := List.exists_cons_of_ne_nil this
          rw [hy]
          dsimp only
          rw [ih]
          congr 2
          simp
        · rw [split_none hc]
          dsimp only
          rw [if_pos ⟨l, by simp, hb, hc⟩]
  unfold pvgisHourlyCsv
  rw [this]

example := hourly_no_header ["Slope: 30\r\n".toList, "\r\n".toList] (by decide) []

/-- `read_pvgis_tmy`, CSV: with or without the line of the time offset, the twelve month lines, the header, the 8760 data lines and the
notes are found. -/
theorem tmy (offset : Option Text) (ho : ∀ o ∈ offset, timeOffset <+: o) (monthYear : Text) (hmy : ¬ timeOffset <+: monthYear)
    (months : List Text) (hm : months.length = 12) (head : Text) (data : List Text) (hd : data.length = 8760) (rest : List Text) :
    pvgisTmyCsv (offset.toList ++ monthYear :: (months ++ head :: (data ++ rest))) = ⟨offset, months, head, data, rest⟩ := by
  have rd : ∀ (n : ℕ) (a b : List Text), a.length = n → readlines n (a ++ b) = a := by
    intro n a b h
    unfold readlines
    rw [List.append_assoc, List.take_append_of_le_length (by omega), List.take_of_length_le (by omega)]
  have d12 : ∀ x, (months ++ head :: (data ++ x)).drop 12 = head :: (data ++ x) := fun x => by rw [← hm, List.drop_left]
  have d13 : ∀ x, (months ++ head :: (data ++ x)).drop 13 = data ++ x := fun x => by
    rw [show 13 = 12 + 1 from rfl, ← List.drop_drop, d12]; rfl
  have dall : ∀ x, (months ++ head :: (data ++ x)).drop (13 + 8760) = x := fun x => by
    rw [← List.drop_drop, d13, ← hd, List.drop_left]
  unfold pvgisTmyCsv
  cases offset with
  | none =>
    have hs : startsWith monthYear timeOffset = false := by
      rw [← Bool.not_eq_true, starts]; exact hmy
    simp only [Option.toList, List.nil_append, List.headD_cons, hs, Bool.false_eq_true, if_false, List.drop_succ_cons, List.drop_zero]
    rw [d12, d13, dall, rd 12 _ _ hm, rd 8760 _ _ hd]
    rfl
  | some o =>
    have hs : startsWith o timeOffset = true := starts.mpr (ho o rfl)
    simp only [Option.toList, List.singleton_append, List.headD_cons, hs, if_true, List.drop_succ_cons, List.drop_zero]
    rw [d12, d13, dall, rd 12 _ _ hm, rd 8760 _ _ hd]
    rfl

example := tmy (some "Irradiance Time Offset (h): 0.2".toList) (by decide) "month,year".toList (by decide) (List.replicate 12 "1,2010".toList)
  (by simp) "time(UTC),T2m".toList (List.replicate 8760 "20100101:0000,5".toList) List.length_replicate []

/-! ### C167: rolling and coercing -/

private theorem roll_length {α : Type} (rows : List α) (k : ℤ) : (npRoll rows k).length = rows.length := by
  unfold npRoll
  simp only [List.length_append, List.length_drop, List.length_take]
  omega

/-- Rolling: row `i` is the former row `i - k`, counted modulo the number of rows. -/
theorem roll {α : Type} (rows : List α) (k : ℤ) (i : ℕ) (hi : i < rows.length) :
    (npRoll rows k)[i]? = rows[(((i : ℤ) - k) % (rows.length : ℤ)).toNat]? := by
  unfold npRoll
  dsimp only
  set n := rows.length with hn
  have hn0 : (n : ℤ) ≠ 0 := by omega
  have hnp : (0 : ℤ) < n := by omega
  have h1 := Int.emod_nonneg (-k) hn0
  have h2 := Int.emod_lt_of_pos (-k) hnp
  obtain ⟨s, hs⟩ := Int.eq_ofNat_of_zero_le h1
  have e : ((i : ℤ) - k) % n = ((i : ℤ) + s) % n := by
    rw [sub_eq_add_neg, Int.add_emod, hs, Int.add_emod (i : ℤ) s]
    congr 2
    rw [← hs, Int.emod_emod_of_dvd _ (dvd_refl _)]
  rw [e, hs]
  have hsn : s < n := by omega
  rw [show ((s : ℤ)).toNat = s from rfl]
  rw [List.getElem?_append]
  simp only [List.length_drop, ← hn]
  by_cases h : i < n - s
  · rw [if_pos h, List.getElem?_drop]
    congr 1
    rw [Int.emod_eq_of_lt (by omega) (by omega)]
    omega
  · rw [if_neg h, List.getElem?_take, if_pos (by omega)]
    congr 1
    have : ((i : ℤ) + s) % n = (i : ℤ) + s - n := by
      rw [← Int.emod_eq_of_lt (a := (i : ℤ) + s - n) (b := n) (by omega) (by omega), Int.sub_emod_right]
    rw [this]
    omega

example := roll [1, 2, 3, 4] (-1) 2 (by decide)

/-- No row is lost or doubled. -/
theorem roll_perm {α : Type} (rows : List α) (k : ℤ) : (npRoll rows k).Perm rows := by
  unfold npRoll
  dsimp only
  refine List.perm_append_comm.trans ?_
  rw [List.take_append_drop]

/-- Rolling back restores the table. -/
theorem roll_back {α : Type} (rows : List α) (k : ℤ) : npRoll (npRoll rows k) (-k) = rows := by
  apply List.ext_getElem?
  intro i
  by_cases hi : i < rows.length
  · rw [roll _ _ _ (by rw [roll_length]; exact hi), roll_length]
    have hn : (0 : ℤ) < rows.length := by omega
    have h1 : 0 ≤ ((i : ℤ) - -k) % (rows.length : ℤ) := Int.emod_nonneg _ (by omega)
    have h2 : ((i : ℤ) - -k) % (rows.length : ℤ) < rows.length := Int.emod_lt_of_pos _ hn
    rw [roll _ _ _ (by omega)]
    congr 1
    rw [Int.toNat_of_nonneg h1]
    rw [Int.emod_sub_emod, show (i : ℤ) - -k - k = i by ring, Int.emod_eq_of_lt (by omega) (by omega)]
    rfl
  · rw [List.getElem?_eq_none (by rw [roll_length, roll_length]; omega), List.getElem?_eq_none (by omega)]

/-- A typical year: one row per hour of a year without leap day, month by month; each month taken from some year.  `date` is the
calendar date of the row's time stamp in UTC, `minute` its minute of the day. -/
def TypicalYear {D : Type} (rows : List (TmyRow D)) : Prop :=
  rows.length = 8760 ∧ ∀ (i : ℕ) (r : TmyRow D), rows[i]? = some r →
    r.date.Valid ∧ ¬ (r.date.month = 2 ∧ r.date.day = 29) ∧
      -- hour `i` of a common year:
      daysBefore 1 r.date.month + r.date.day = i / 24 + 1 ∧ r.minute / 60 = i % 24

private theorem valid_in {d : Date} (h : d.Valid) (hl : ¬ (d.month = 2 ∧ d.day = 29)) {c : ℕ} (hc : 1 ≤ c) :
    (⟨c, d.month, d.day⟩ : Date).Valid := by
  obtain ⟨h0, h1, h2, h3, h4⟩ := h
  refine ⟨hc, h1, h2, h3, ?_⟩
  dsimp only
  obtain ⟨y, m, dd⟩ := d
  dsimp only at *
  interval_cases m <;> simp only [daysInMonth] at h4 ⊢ <;> first | exact h4 | (split_ifs at h4 ⊢ <;> omega)

/-- `get_pvgis_tmy` with `roll_utc_offset` (an offset for which there is a zone) and/or `coerce_year`: the result has the local zone of
this offset, and there is one row for each original row; row `i` has the month, day and time of day of the original row `i`, in the
coerced year (by default 1990), and the values of the original row `i - offset` (modulo their number). -/
theorem coerce_and_roll {D : Type} (rows : List (TmyRow D)) (hv : ∀ r ∈ rows, r.date.Valid ∧ ¬ (r.date.month = 2 ∧ r.date.day = 29))
    (tz : Option ℤ) (htz : -12 ≤ tz.getD 0 ∧ tz.getD 0 ≤ 14) (year : ℕ) (hy : 1 ≤ year) :
    ∃ out, coerceAndRoll rows tz year = .ok (tz.getD 0, out) ∧ out.length = rows.length ∧
      ∀ (i : ℕ) (r : TmyRow D), rows[i]? = some r → ∃ v, out[i]? = some (stamp (⟨year, r.date.month, r.date.day⟩ : Date).ordinal r.minute, v) ∧
        (rows[(((i : ℤ) - tz.getD 0) % (rows.length : ℤ)).toNat]?).map TmyRow.values = some v := by
  have he : etcOffset (tz.getD 0) = .ok (tz.getD 0) := by
    unfold etcOffset
    split_ifs with h
    · rw [h]
    · rfl
  have hs : ∀ r ∈ rows, coercedStamp year r = .ok (stamp (⟨year, r.date.month, r.date.day⟩ : Date).ordinal r.minute) := by
    intro r hr
    unfold coercedStamp ofYMD
    rw [if_pos (valid_in (hv r hr).1 (hv r hr).2 hy)]
  refine ⟨(rows.map fun r => stamp (⟨year, r.date.month, r.date.day⟩ : Date).ordinal r.minute).zip (npRoll (rows.map TmyRow.values) (tz.getD 0)),
    ?_, ?_, ?_⟩
  · unfold coerceAndRoll
    rw [he]
    dsimp only
    rw [each_ok hs]
  · rw [List.length_zip, roll_length, List.length_map, List.length_map, min_self]
  · intro i r hr
    have hi : i < rows.length := (List.getElem?_eq_some_iff.mp hr).1
    have hroll := roll (rows.map TmyRow.values) (tz.getD 0) i (by rw [List.length_map]; exact hi)
    rw [List.length_map, List.getElem?_map] at hroll
    have hi' : i < (npRoll (rows.map TmyRow.values) (tz.getD 0)).length := by rw [roll_length, List.length_map]; exact hi
    refine ⟨(npRoll (rows.map TmyRow.values) (tz.getD 0))[i], ?_, ?_⟩
    · rw [List.getElem?_zip_eq_some]
      refine ⟨?_, List.getElem?_eq_getElem hi'⟩
      rw [List.getElem?_map, hr]
      rfl
    · rw [← hroll, List.getElem?_eq_getElem hi']

example := coerce_and_roll [⟨⟨2012, 1, 1⟩, 0, 5⟩, ⟨⟨2012, 1, 1⟩, 60, 6⟩] (by decide) (some (-7)) (by decide) 1990 (by decide)

private theorem common {d : Date} (hd : d.Valid) {c : ℕ} (hc : leap c = false) : daysBefore c d.month = daysBefore 1 d.month := by
  obtain ⟨-, h1, h2, -⟩ := hd
  have e : leap 1 = false := by decide
  generalize d.month = m at *
  interval_cases m <;> simp [daysBefore, hc, e]

/-- In a common year the values keep their moments: the time of new row `i` (local time minus offset), and the time in UTC of the
original row whose values it has, set in the coerced year, are the same or differ by exactly one year (the few hours that were moved
over the turn of the year). -/
theorem same_moment {D : Type} {rows : List (TmyRow D)} (h : TypicalYear rows) {q : ℕ} (hq : ∀ r ∈ rows, r.minute % 60 = q)
    {year : ℕ} (hc : leap year = false) {tz : ℤ} (htz : -12 ≤ tz ∧ tz ≤ 14) {i : ℕ} {r r' : TmyRow D} (hr : rows[i]? = some r)
    (hr' : rows[(((i : ℤ) - tz) % (rows.length : ℤ)).toNat]? = some r') :
    let local_ : ℤ := stamp (⟨year, r.date.month, r.date.day⟩ : Date).ordinal r.minute
    let utc : ℤ := stamp (⟨year, r'.date.month, r'.date.day⟩ : Date).ordinal r'.minute
    local_ - 60 * tz = utc ∨ local_ - 60 * tz = utc + 525600 ∨ local_ - 60 * tz = utc - 525600 := by
  obtain ⟨hn, hall⟩ := h
  obtain ⟨v, -, d1, m1⟩ := hall i r hr
  obtain ⟨v', -, d2, m2⟩ := hall _ r' hr'
  have hi : i < rows.length := (List.getElem?_eq_some_iff.mp hr).1
  have q1 := hq r (List.mem_of_getElem? hr)
  have q2 := hq r' (List.mem_of_getElem? hr')
  rw [hn] at hi d2 m2
  simp only [stamp, Date.ordinal, Date.doy]
  rw [common v hc, common v' hc, d1, d2]
  push_cast at *
  omega

/-- In a leap year they do not: e.g. for offset 1 the first hour of March 1 gets the values of the last hour of February 28, which is 25
hours before. -/
theorem leap_year_moves : let local_ := stamp (⟨2020, 3, 1⟩ : Date).ordinal 0
    let utc := stamp (⟨2020, 2, 28⟩ : Date).ordinal (23 * 60)
    local_ - 60 * 1 = utc + 1440 := by decide

/-- Offsets for which there is no zone are refused. -/
theorem no_zone {D : Type} (rows : List (TmyRow D)) {tz : ℤ} (h : tz < -12 ∨ 14 < tz) (year : ℕ) :
    coerceAndRoll rows (some tz) year = .error (.keyError "No time zone found") := by
  unfold coerceAndRoll etcOffset
  rw [Option.getD_some, if_neg (by omega), if_neg (by omega)]

example := no_zone [(⟨⟨2012, 1, 1⟩, 0, 5⟩ : TmyRow ℕ)] (tz := 15) (by decide) 1990

/-- A row of a leap day cannot be moved to a common year. -/
theorem leap_day_refused {D : Type} (rows : List (TmyRow D)) (hv : ∀ r ∈ rows, r.date.Valid) {r : TmyRow D} (hr : r ∈ rows)
    (hl : r.date.month = 2 ∧ r.date.day = 29) (tz : Option ℤ) (htz : -12 ≤ tz.getD 0 ∧ tz.getD 0 ≤ 14) {year : ℕ} (hc : leap year = false) :
    coerceAndRoll rows tz year = .error .valueError := by
  have he : ∃ o, etcOffset (tz.getD 0) = .ok o := by
    unfold etcOffset
    split_ifs with h
    · exact ⟨_, rfl⟩
    · exact ⟨_, rfl⟩
  obtain ⟨o, ho⟩ := he
  have each_err : each (coercedStamp year) rows = .error .valueError := by
    clear hv
    induction rows with
    | nil => simp at hr
    | cons a as ih =>
      rw [each]
      have ha : coercedStamp year a = .error .valueError ∨ ∃ t, coercedStamp year a = .ok t := by
        unfold coercedStamp ofYMD
        split_ifs
        · exact .inr ⟨_, rfl⟩
        · exact .inl rfl
      rcases ha with ha | ⟨t, ha⟩
      · rw [ha]
      · rw [ha]
        dsimp only
        have : r ≠ a := by
          rintro rfl
          unfold coercedStamp ofYMD at ha
          rw [if_neg] at ha
          · simp at ha
          · rintro ⟨-, -, -, -, h5⟩
            dsimp only at h5
            rw [hl.1, hl.2] at h5
            have e : daysInMonth year 2 = if leap year = true then 29 else 28 := rfl
            rw [e, hc] at h5
            simp at h5
        rw [ih ((List.mem_cons.mp hr).resolve_left this)]
  unfold coerceAndRoll
  rw [ho]
  dsimp only
  rw [each_err]

example := leap_day_refused [(⟨⟨2012, 2, 29⟩, 0, 5⟩ : TmyRow ℕ)] (by decide) (r := ⟨⟨2012, 2, 29⟩, 0, 5⟩) (List.mem_singleton.mpr rfl) ⟨rfl, rfl⟩ (some 1) (by decide) (year := 1990) (by decide)

/-- Without both arguments nothing is changed; with a year (other than 0) the data are coerced to that year; with an offset only, to 1990. -/
theorem requested {D : Type} (rows : List (TmyRow D)) (tz : ℤ) {year : ℕ} (hy : year ≠ 0) :
    tmyPostprocess rows none none = none ∧ tmyPostprocess rows none (some year) = some (coerceAndRoll rows none year) ∧
      tmyPostprocess rows (some tz) (some year) = some (coerceAndRoll rows (some tz) year) ∧
      tmyPostprocess rows (some tz) none = some (coerceAndRoll rows (some tz) 1990) := by
  simp [tmyPostprocess, hy]

example := requested [(⟨⟨2012, 1, 1⟩, 0, 5⟩ : TmyRow ℕ)] 1 (year := 2020) (by decide)

/-! ### Horizon -/

/-- **C167.**  The aspect PVGIS is asked for names the direction the panels face: PVGIS counts from south, positive towards west, so its
unit vector (east, north) is `(-sin, -cos)` of the aspect; south itself is aspect 0. -/
theorem aspect_direction (azimuth : ℝ) : ∃ a : ℝ, aspect (.fin azimuth) = .fin a ∧ (azimuth = 180 → a = 0) ∧
    Spec.sinDeg azimuth = -Spec.sinDeg a ∧ Spec.cosDeg azimuth = -Spec.cosDeg a ∧ (0 ≤ azimuth → azimuth < 360 → -180 ≤ a ∧ a < 180) := by
  refine ⟨azimuth - 180, ?_, by intro h; rw [h]; norm_num, ?_, ?_, fun h1 h2 => ⟨by linarith, by linarith⟩⟩
  · unfold aspect; rw [Fl.ofNat_eq, Fl.fin_sub]
  · unfold Spec.sinDeg
    rw [sub_mul, show (180 : ℝ) * (Real.pi / 180) = Real.pi by ring, Real.sin_sub_pi, neg_neg]
  · unfold Spec.cosDeg
    rw [sub_mul, show (180 : ℝ) * (Real.pi / 180) = Real.pi by ring, Real.cos_sub_pi, neg_neg]

example := aspect_direction 270

/-- `get_pvgis_horizon`: PVGIS azimuths run from -180 (north) over 0 (south) to 180 (north again).  The result has each point with
azimuth in [0, 360), counted from north over east, in the same order, with its elevation; only points due north at the end are left out. -/
theorem horizon_points (profile : List (ℚ × ℚ)) (h : ∀ p ∈ profile, -180 ≤ p.1 ∧ p.1 ≤ 180) (a e : ℚ) :
    (∀ p ∈ horizon profile, 0 ≤ p.1 ∧ p.1 < 360) ∧ ((a, e) ∈ horizon profile ↔ (a - 180, e) ∈ profile ∧ a ≠ 360) := by
  unfold horizon
  constructor
  · intro p hp
    obtain ⟨hp1, hp2⟩ := List.mem_filter.mp hp
    obtain ⟨p0, h0, rfl⟩ := List.mem_map.mp hp1
    have := (h p0 h0).1
    exact ⟨by dsimp only; linarith, by simpa using hp2⟩
  · rw [List.mem_filter, List.mem_map]
    constructor
    · rintro ⟨⟨p0, h0, hp0⟩, h2⟩
      have e1 : p0.1 + 180 = a := congrArg Prod.fst hp0
      have e2 : p0.2 = e := congrArg Prod.snd hp0
      have h2' : a < 360 := by simpa using h2
      refine ⟨?_, h2'.ne⟩
      have : p0 = (a - 180, e) := by
        obtain ⟨x, y⟩ := p0
        dsimp only at e1 e2
        rw [← e1, ← e2]
        simp
      exact this ▸ h0
    · rintro ⟨h1, h2⟩
      refine ⟨⟨_, h1, by simp⟩, ?_⟩
      have := (h _ h1).2
      dsimp only at this
      have h3 : a ≤ 360 := by linarith
      simpa using lt_of_le_of_ne h3 h2

example := horizon_points [(-180, 5), (0, 10), (180, 5)] (by decide) 180 10

/-- If the azimuths increase, so do those of the result. -/
theorem horizon_sorted (profile : List (ℚ × ℚ)) (h : profile.Pairwise fun p q => p.1 < q.1) :
    (horizon profile).Pairwise fun p q => p.1 < q.1 := by
  unfold horizon
  apply List.Pairwise.filter
  rw [List.pairwise_map]
  exact h.imp (by intro a b hab; dsimp only; linarith)

/-! ### Examples -/

example : (MetaLine.entry ⟨"Slope".toList, " 30 deg. (optimum)\r".toList, none⟩).Ok ∧ lastValue "Slope".toList [⟨"Slope".toList, " 30 deg.\r".toList, none⟩] =
    some "30 deg.".toList := by
  refine ⟨⟨by decide, ⟨⟨by decide, by decide⟩, ?_⟩⟩, by decide⟩
  unfold Blank
  decide

example : pvgisHourlyCsv ["Slope: 30 deg.\r\n".toList, "\r\n".toList, "time,P,Int\r\n".toList, "20160101:0000,1,0\r\n".toList, "\r\n".toList,
    "P: PV power (W)\r\n".toList] [] = .ok ⟨[("Slope".toList, "30 deg.".toList)], ["time".toList, "P".toList, "Int".toList],
      [["20160101:0000".toList, "1".toList, "0".toList]], [("P".toList, "PV power (W)".toList)]⟩ := by
  rfl

theorem typicalYear_exists : ∃ rows : List (TmyRow ℕ), TypicalYear rows ∧ ∀ r ∈ rows, r.minute % 60 = 0 := by
  have e : ∀ n < 365, ∃ d : Date, d.Valid ∧ d.year = 2021 ∧ ¬ (d.month = 2 ∧ d.day = 29) ∧ daysBefore 1 d.month + d.day = n + 1 := by
    intro n hn
    induction n with
    | zero => exact ⟨⟨2021, 1, 1⟩, by decide, rfl, by decide, rfl⟩
    | succ n ih =>
      obtain ⟨d, hv, hy, hl, hd⟩ := ih (by omega)
      have hv' := next_valid hv
      have hc : leap 2021 = false := by decide
      have key := next_ordinal hv
      have hd1 : d.doy = n + 1 := by
        unfold Date.doy
        rw [hy, common hv hc, hd]
      have hyear : d.next.year = 2021 := by
        have h1 : d.next.year = 2021 ∨ d.next.year = 2022 := by
          unfold Date.next; split_ifs <;> simp [hy]
        rcases h1 with h1 | h1
        · exact h1
        · exfalso
          have h2 := (doy_le hv').1
          unfold Date.ordinal at key
          rw [h1, hy, hd1] at key
          have e1 : yearStart 2022 = 738155 := by decide
          have e2 : yearStart 2021 = 737790 := by decide
          omega
      refine ⟨d.next, hv', hyear, ?_, ?_⟩
      · rintro ⟨h1, h2⟩
        have := hv'.2.2.2.2
        rw [h1, h2, hyear] at this
        revert this
        decide
      · unfold Date.ordinal at key
        rw [hyear, hy, hd1] at key
        have : d.next.doy = daysBefore 1 d.next.month + d.next.day := by
          unfold Date.doy; rw [hyear, common hv' hc]
        omega
  choose f hf using e
  refine ⟨(List.range 8760).map fun i => ⟨f (min (i / 24) 364) (by omega), 60 * (i % 24), i⟩, ⟨by simp, ?_⟩, ?_⟩
  swap
  · intro r hr
    obtain ⟨i, -, rfl⟩ := List.mem_map.mp hr
    dsimp only
    omega
  intro i r hr
  rw [List.getElem?_map, Option.map_eq_some_iff] at hr
  obtain ⟨j, hj, rfl⟩ := hr
  obtain ⟨hlt, hj⟩ := List.getElem?_eq_some_iff.mp hj
  rw [List.getElem_range] at hj
  subst hj
  rw [List.length_range] at hlt
  have := hf (min (i / 24) 364) (by omega)
  refine ⟨this.1, this.2.2.1, ?_, ?_⟩
  · dsimp only
    rw [this.2.2.2]
    omega
  · dsimp only
    omega

example : ∃ (rows : List (TmyRow ℕ)) (r r' : TmyRow ℕ), TypicalYear rows ∧ (∀ r ∈ rows, r.minute % 60 = 0) ∧ rows[5]? = some r ∧
    rows[((((5 : ℕ) : ℤ) - 1) % (rows.length : ℤ)).toNat]? = some r' := by
  obtain ⟨rows, h, h0⟩ := typicalYear_exists
  have hl := h.1
  obtain ⟨r', hr'⟩ := List.getElem?_eq_some_iff.mpr ⟨by omega, rfl⟩ |> fun e : rows[4]? = some rows[4] => (⟨_, e⟩ : ∃ r', rows[4]? = some r')
  exact ⟨rows, rows[5], r', h, h0, List.getElem?_eq_getElem _, by rw [hl]; exact hr'⟩

end Pvlib.Props.Pvgis
