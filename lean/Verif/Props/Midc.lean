import Verif.Model.Midc
import Verif.Props.StationIndex

/-! # Property C219: MIDC files -/

noncomputable section
namespace Pvlib.Props.Midc
open Pvlib.Midc Pvlib.Calendar Pvlib.IoIndex Pvlib.IoRequests Pvlib.Props.StationIndex

/-! ### Specification -/

/-- Two digits. -/
def two (n : ℕ) : List Char := [Char.ofNat (48 + n / 10), Char.ofNat (48 + n % 10)]

/-- A number below 100 written with two digits, or without the leading zero. -/
def Written (n : ℕ) (t : List Char) : Prop := n < 100 ∧ t = two n ∨ n < 10 ∧ t = [Char.ofNat (48 + n)]

/-- The zone that a file means by the name of its time column: Pacific and Central standard time are 8 and 6 hours behind UTC; the others are names of zones. -/
def zoneOf : String → String
  | "PST" => "Etc/GMT+8"
  | "CST" => "Etc/GMT+6"
  | name => name

/-- A row of a file. -/
structure Row where
  (year month day hour minute : ℕ)
  (dateText timeText : List Char)
  (values : List Cell)

/-- The moment of the row exists, and the texts of its first two fields name it. -/
structure Row.Ok (r : Row) : Prop where
  valid : (⟨r.year, r.month, r.day⟩ : Date).Valid
  year : r.year ≤ 9999
  hour : r.hour ≤ 23
  minute : r.minute ≤ 59
  date : ∃ mo d, Written r.month mo ∧ Written r.day d ∧ r.dateText = mo ++ '/' :: (d ++ '/' :: fourDigits r.year)
  time : ∃ h mi, Written r.hour h ∧ Written r.minute mi ∧ r.timeText = h ++ ':' :: mi

/-- The line in the file. -/
def Row.line (r : Row) : List Cell := .text r.dateText :: .text r.timeText :: r.values

/-- The moment the row names, in minutes of local time. -/
def Row.moment (r : Row) : ℕ := at' r.year r.month r.day (60 * r.hour + r.minute)

/-- Field number `j` of a line; missing if the line is too short. -/
def field (line : List Cell) (j : ℕ) : Cell := match line[j]? with
  | some c => c
  | none => .missing

/-- The DataFrame has the columns of the header, renamed, and in column `j` of row `i` field number `j + shift` of line number `i`. -/
structure Holds (data : Frame) (header : List String) (lines : List (List Cell)) (rename : String → Option String) (shift : ℕ) : Prop where
  names : data.columns.length = header.length ∧ ∀ (j : ℕ) (name : String), header[j]? = some name →
    data.columns[j]? = some (match rename name with | some new => new | none => name)
  rows : data.rows.length = lines.length
  cells : ∀ (i : ℕ) (line : List Cell), lines[i]? = some line → ∃ row, data.rows[i]? = some row ∧ row.length = header.length ∧
    ∀ j < header.length, row[j]? = some (field line (j + shift))

/-! ### Proofs -/

private theorem timezone_eq (s : String) : timezone s = zoneOf s := by
  unfold timezone zoneOf
  split
  · next h => subst h; rfl
  · split
    · next h => subst h; rfl
    · split <;> simp_all

private theorem char_value : ∀ n < 10, digitValue (Char.ofNat (48 + n)) = some n := by decide +kernel
private theorem not_slash : ∀ n < 10, Char.ofNat (48 + n) ≠ '/' ∧ Char.ofNat (48 + n) ≠ ':' := by decide +kernel

private theorem written_short {n : ℕ} {t : List Char} (h : Written n t) : short t = some n := by
  rcases h with ⟨h, rfl⟩ | ⟨h, rfl⟩
  · unfold short
    rw [if_pos ⟨by simp [two], by simp [two]⟩]
    simp only [digitsValue, two, List.foldl_cons, List.foldl_nil, char_value _ (show n / 10 < 10 by omega),
      char_value _ (show n % 10 < 10 by omega), Option.bind_some, Option.map_some]
    congr 1; omega
  · unfold short
    rw [if_pos ⟨by simp, by simp⟩]
    simp only [digitsValue, List.foldl_cons, List.foldl_nil, char_value _ h, Option.bind_some, Option.map_some]
    congr 1; omega

private theorem written_chars {n : ℕ} {t : List Char} (h : Written n t) : ∀ c ∈ t, c ≠ '/' ∧ c ≠ ':' := by
  intro c hc
  rcases h with ⟨h, rfl⟩ | ⟨h, rfl⟩
  · simp only [two, List.mem_cons, List.not_mem_nil, or_false] at hc
    rcases hc with rfl | rfl
    · exact not_slash _ (by omega)
    · exact not_slash _ (by omega)
  · simp only [List.mem_cons, List.not_mem_nil, or_false] at hc
    subst hc
    exact not_slash _ h

private theorem four_value (n : ℕ) (h : n < 10000) : digitsValue (fourDigits n) = some n := by
  simp only [digitsValue, fourDigits, List.foldl_cons, List.foldl_nil, char_value _ (show n / 1000 % 10 < 10 by omega),
    char_value _ (show n / 100 % 10 < 10 by omega), char_value _ (show n / 10 % 10 < 10 by omega), char_value _ (show n % 10 < 10 by omega),
    Option.bind_some, Option.map_some]
  congr 1; omega

private theorem takeWhile_sep (x : Char) : ∀ (a b : List Char), (∀ c ∈ a, c ≠ x) → (a ++ x :: b).takeWhile (· ≠ x) = a ∧
    ((a ++ x :: b).dropWhile (· ≠ x)).drop 1 = b
  | [], b, _ => by simp
  | c :: a, b, h => by
    have := takeWhile_sep x a b fun c hc => h c (List.mem_cons_of_mem _ hc)
    have hc : (decide (c ≠ x)) = true := by simpa using h c List.mem_cons_self
    simp only [List.cons_append, List.takeWhile_cons, List.dropWhile_cons, hc, if_true]
    exact ⟨by rw [this.1], this.2⟩

private theorem parse_row {r : Row} (h : r.Ok) : parseStamp (r.dateText ++ r.timeText) = .ok r.moment := by
  obtain ⟨hv, hy, hh, hm, ⟨mo, d, hmo, hd, e⟩, ⟨hr, mi, hhr, hmi, e'⟩⟩ := h
  have e1 : r.dateText ++ r.timeText = mo ++ '/' :: (d ++ '/' :: (fourDigits r.year ++ (hr ++ ':' :: mi))) := by rw [e, e']; simp
  have a1 := takeWhile_sep '/' mo (d ++ '/' :: (fourDigits r.year ++ (hr ++ ':' :: mi))) fun c hc => (written_chars hmo c hc).1
  have a2 := takeWhile_sep '/' d (fourDigits r.year ++ (hr ++ ':' :: mi)) fun c hc => (written_chars hd c hc).1
  have a3 := takeWhile_sep ':' hr mi fun c hc => (written_chars hhr c hc).2
  have l4 : (fourDigits r.year).length = 4 := rfl
  unfold parseStamp
  dsimp only
  rw [e1, a1.1, a1.2, a2.1, a2.2, List.take_left' l4, List.drop_left' l4, a3.1, a3.2, if_pos l4, written_short hmo, written_short hd,
    four_value _ (by omega), written_short hhr, written_short hmi]
  exact (networks_agree hv).2 hh hm

private theorem each_map {α β γ : Type} (f : β → Except PyErr γ) (g : α → β) (k : α → γ) : ∀ (l : List α), (∀ a ∈ l, f (g a) = .ok (k a)) →
    each f (l.map g) = .ok (l.map k)
  | [], _ => rfl
  | a :: l, h => by
    rw [List.map_cons, List.map_cons, each, h a List.mem_cons_self]
    dsimp only
    rw [each_map f g k l fun a ha => h a (List.mem_cons_of_mem _ ha)]

private theorem fit_length (n : ℕ) (l : List Cell) : (fit n l).length = n := by simp [fit]

private theorem fit_get (n : ℕ) (l : List Cell) {j : ℕ} (h : j < n) : (fit n l)[j]? = some (field l j) := by
  unfold fit field
  rw [List.getElem?_take_of_lt h]
  by_cases hj : j < l.length
  · rw [List.getElem?_append_left hj, List.getElem?_eq_getElem hj]
  · rw [List.getElem?_append_right (by omega), List.getElem?_replicate, if_pos (by omega), List.getElem?_eq_none (by omega)]

private theorem holds_of {header : List String} {lines : List (List Cell)} (vm : String → Option String) (w k : ℕ) (hw : w = header.length + k) :
    Holds ⟨header.map fun c => (vm c).getD c, lines.map fun l => (fit w l).drop k⟩ header lines vm k := by
  refine ⟨⟨by simp, fun j name h => ?_⟩, by simp, fun i line h => ⟨(fit w line).drop k, ?_, ?_, fun j hj => ?_⟩⟩
  · dsimp only
    rw [List.getElem?_map, h]
    dsimp only [Option.map_some]
    cases vm name <;> rfl
  · dsimp only
    rw [List.getElem?_map, h]; rfl
  · rw [List.length_drop, fit_length]; omega
  · rw [List.getElem?_drop, add_comm k j, fit_get _ _ (by omega)]

/-- The moments of the index: those of the rows, taken to instants by the time zone of the file. -/
private theorem localized_rows {α : Type} (zones : String → Option (ℕ → Except PyErr ℤ)) {zone : String} {u : ℕ → ℤ} (hz : zones zone = some fun s => .ok (u s))
    (rows : List α) (m : α → ℕ) : Pvlib.Midc.localized zones zone (rows.map fun r => some (m r)) = .ok (rows.map fun r => some (u (m r))) := by
  unfold Pvlib.Midc.localized
  rw [hz]
  dsimp only
  exact each_map _ _ _ rows fun a _ => rfl

private theorem column_fit (header : List String) (lines : List (List Cell)) (name : String) (h : name ∈ header) :
    (⟨header, lines.map (fit header.length)⟩ : Frame).column name = some (lines.map fun l => field l (header.idxOf name)) := by
  unfold Frame.column
  dsimp only
  rw [if_pos h, List.map_map]
  congr 1
  refine List.map_congr_left fun l _ => ?_
  dsimp only [Function.comp]
  rw [List.getD_eq_getElem?_getD, fit_get _ _ (List.idxOf_lt_length_iff.2 h)]
  rfl

/-- What a line of a file says about its moment: the line of a row names it; a line whose date or time is missing has none. -/
inductive Says : List Cell → Option ℕ → Prop
  | row (r : Row) (h : r.Ok) : Says r.line (some r.moment)
  | no_date (time : Cell) (values : List Cell) : Says (.missing :: time :: values) none
  | no_time (date : List Char) (values : List Cell) : Says (.text date :: .missing :: values) none

private theorem says_dateTime {l : List Cell} {m : Option ℕ} (h : Says l m) : dateTime (field l 0) (field l 1) = .ok m := by
  cases h with
  | row r h =>
    show dateTime (.text r.dateText) (.text r.timeText) = _
    unfold dateTime
    dsimp only
    rw [parse_row h]
  | no_date t v => rfl
  | no_time d v => rfl

private theorem readCsv_short {header : List String} {lines : List (List Cell)} (hl : ∀ l ∈ lines, l.length ≤ header.length) :
    readCsv none ⟨header, lines⟩ = .ok ⟨header, lines.map (fit header.length)⟩ := by
  have hw : max header.length ((lines.head?.map List.length).getD 0) = header.length := by
    cases lines with
    | nil => simp
    | cons r rs => simpa using hl r List.mem_cons_self
  unfold readCsv
  dsimp only
  rw [hw, if_neg]
  · simp only [Nat.sub_self, List.drop_zero]
  · simp only [List.any_eq_true, decide_eq_true_eq, not_exists, not_and]
    intro l h
    exact (hl l h).not_gt

private theorem formatIndex_eq (zones : String → Option (ℕ → Except PyErr ℤ)) {tz : String} (names : List String) (htz : tz ≠ "DATE (MM/DD/YYYY)") (lines : List (List Cell)) :
    formatIndex zones ⟨"DATE (MM/DD/YYYY)" :: tz :: names, lines.map (fit ("DATE (MM/DD/YYYY)" :: tz :: names).length)⟩ =
      match each (fun p : Cell × Cell => dateTime p.1 p.2) (lines.map fun l => (field l 0, field l 1)) with
      | .error e => .error e
      | .ok index => Pvlib.Midc.localized zones (zoneOf tz) index := by
  set header := "DATE (MM/DD/YYYY)" :: tz :: names with hh
  unfold formatIndex
  dsimp only
  rw [show header[1]? = some tz from rfl]
  dsimp only
  rw [column_fit _ _ _ (by simp [hh]), column_fit _ _ _ (by simp [hh]), show header.idxOf "DATE (MM/DD/YYYY)" = 0 by simp [hh],
    show header.idxOf tz = 1 by rw [hh, List.idxOf_cons_ne _ (Ne.symm htz), List.idxOf_cons_self]]
  dsimp only
  rw [List.zip_map', timezone_eq]
  rfl

/-- **C219** (files): a file with a date and a time column, written with or without leading zeros, is read with the moments its lines name (none where the date or the time
is missing), in the time zone that the name of the time column stands for; the columns keep their order and values, with the new names where there are such. -/
theorem midc_file (zones : String → Option (ℕ → Except PyErr ℤ)) {tz : String} (names : List String) {u : ℕ → ℤ} (hz : zones (zoneOf tz) = some fun s => .ok (u s))
    (htz : tz ≠ "DATE (MM/DD/YYYY)") (rows : List (List Cell × Option ℕ)) (hr : ∀ r ∈ rows, Says r.1 r.2 ∧ r.1.length ≤ names.length + 2) (rename : String → Option String) :
    ∃ data, readMidc zones ⟨"DATE (MM/DD/YYYY)" :: tz :: names, rows.map Prod.fst⟩ rename false none = .ok (rows.map fun r => r.2.map u, data) ∧
      Holds data ("DATE (MM/DD/YYYY)" :: tz :: names) (rows.map Prod.fst) rename 0 := by
  set header := "DATE (MM/DD/YYYY)" :: tz :: names with hh
  refine ⟨⟨header.map fun c => (rename c).getD c, (rows.map Prod.fst).map fun l => (fit header.length l).drop 0⟩, ?_, holds_of rename _ 0 rfl⟩
  unfold readMidc
  rw [readCsv_short (by
    intro l hl
    obtain ⟨r, h, rfl⟩ := List.mem_map.mp hl
    exact (hr r h).2)]
  dsimp only
  rw [if_neg (by simp), hh, formatIndex_eq zones names htz, List.map_map, each_map (fun p : Cell × Cell => dateTime p.1 p.2) _ (fun r => r.2) rows fun r h => says_dateTime (hr r h).1]
  dsimp only
  unfold Pvlib.Midc.localized
  rw [hz]
  dsimp only
  rw [each_map _ _ (fun r => r.2.map u) rows fun r _ => by cases r.2 <;> rfl]
  simp only [List.drop_zero]

private theorem each_error {β γ : Type} (f : β → Except PyErr γ) : ∀ (l : List β), (∃ b ∈ l, f b = .error .valueError) →
    (∀ b ∈ l, f b = .error .valueError ∨ ∃ c, f b = .ok c) → each f l = .error .valueError
  | [], h, _ => by simp at h
  | a :: l, h, hall => by
    rw [each]
    rcases hall a List.mem_cons_self with e | ⟨c, e⟩
    · rw [e]
    · rw [e]
      dsimp only
      obtain ⟨b, hb, e'⟩ := h
      have : ∃ b ∈ l, f b = .error .valueError := by
        rcases List.mem_cons.mp hb with rfl | hb
        · rw [e] at e'; cases e'
        · exact ⟨b, hb, e'⟩
      rw [each_error f l this fun b hb => hall b (List.mem_cons_of_mem _ hb)]

/-- A line whose date has a month or a day of none or more than two characters. -/
def BadDate (l : List Cell) : Prop := ∃ mo d rest time values, (∀ c ∈ mo, c ≠ '/') ∧ (∀ c ∈ d, c ≠ '/') ∧ l = .text (mo ++ '/' :: (d ++ '/' :: rest)) :: .text time :: values ∧
  (mo.length = 0 ∨ 2 < mo.length ∨ d.length = 0 ∨ 2 < d.length)

private theorem short_bad {t : List Char} (h : t.length = 0 ∨ 2 < t.length) : short t = none := by
  unfold short
  rw [if_neg (by omega)]

private theorem bad_dateTime {l : List Cell} (h : BadDate l) : dateTime (field l 0) (field l 1) = .error .valueError := by
  obtain ⟨mo, d, rest, time, values, h1, h2, rfl, h3⟩ := h
  show dateTime (.text (mo ++ '/' :: (d ++ '/' :: rest))) (.text time) = _
  have e : mo ++ '/' :: (d ++ '/' :: rest) ++ time = mo ++ '/' :: (d ++ '/' :: (rest ++ time)) := by simp
  have a1 := takeWhile_sep '/' mo (d ++ '/' :: (rest ++ time)) h1
  have a2 := takeWhile_sep '/' d (rest ++ time) h2
  unfold dateTime
  dsimp only
  rw [e]
  have : parseStamp (mo ++ '/' :: (d ++ '/' :: (rest ++ time))) = .error .valueError := by
    unfold parseStamp
    dsimp only
    rw [a1.1, a1.2, a2.1, a2.2]
    rcases h3 with h | h | h | h
    · rw [short_bad (.inl h)]
    · rw [short_bad (.inr h)]
    · rw [short_bad (.inl h)]
      cases short mo <;> rfl
    · rw [short_bad (.inr h)]
      cases short mo <;> rfl
  rw [this]

/-- **C219** (refused files): a line whose month or day is not of one or two characters makes the whole file a ValueError. -/
theorem midc_bad_date (zones : String → Option (ℕ → Except PyErr ℤ)) {tz : String} (names : List String) (htz : tz ≠ "DATE (MM/DD/YYYY)") (lines : List (List Cell))
    (hl : ∀ l ∈ lines, l.length ≤ names.length + 2 ∧ (BadDate l ∨ ∃ m, Says l m)) (hb : ∃ l ∈ lines, BadDate l) (rename : String → Option String) :
    readMidc zones ⟨"DATE (MM/DD/YYYY)" :: tz :: names, lines⟩ rename false none = .error .valueError := by
  unfold readMidc
  rw [readCsv_short (header := "DATE (MM/DD/YYYY)" :: tz :: names) fun l h => (hl l h).1]
  dsimp only
  rw [if_neg (by simp), formatIndex_eq zones names htz, each_error]
  · obtain ⟨l, h, hb⟩ := hb
    exact ⟨_, List.mem_map_of_mem h, bad_dateTime hb⟩
  · intro p hp
    obtain ⟨l, h, rfl⟩ := List.mem_map.mp hp
    rcases (hl l h).2 with k | ⟨m, k⟩
    · exact .inl (bad_dateTime k)
    · exact .inr ⟨m, says_dateTime k⟩

/-- **C219** (files without the date column): KeyError naming it, whatever the lines. -/
theorem midc_no_date (zones : String → Option (ℕ → Except PyErr ℤ)) (header : List String) (hn : "DATE (MM/DD/YYYY)" ∉ header) (h2 : 2 ≤ header.length)
    (lines : List (List Cell)) (hl : ∀ l ∈ lines, l.length ≤ header.length) (rename : String → Option String) :
    readMidc zones ⟨header, lines⟩ rename false none = .error (.keyError "DATE (MM/DD/YYYY)") := by
  unfold readMidc
  rw [readCsv_short hl]
  dsimp only
  rw [if_neg (by simp)]
  unfold formatIndex
  dsimp only
  rw [List.getElem?_eq_getElem (show 1 < header.length by omega)]
  dsimp only
  rw [show (⟨header, lines.map (fit header.length)⟩ : Frame).column "DATE (MM/DD/YYYY)" = none from if_neg hn]

/-- A row of raw data: day of the year, time of day as an integer HHMM. -/
structure RawRow where
  first : Cell
  (year doy hour minute : ℕ)
  values : List Cell

/-- The moment of the row exists. -/
structure RawRow.Ok (r : RawRow) : Prop where
  year : 1000 ≤ r.year ∧ r.year ≤ 9999
  doy : 1 ≤ r.doy ∧ r.doy ≤ yearDays r.year
  hour : r.hour ≤ 23
  minute : r.minute ≤ 59

/-- The line in the file. -/
def RawRow.line (r : RawRow) : List Cell := r.first :: .int r.year :: .int r.doy :: .int (100 * r.hour + r.minute) :: r.values

/-- The moment the row names, in minutes of local time. -/
def RawRow.moment (r : RawRow) : ℕ := at' r.year 1 1 (1440 * (r.doy - 1) + 60 * r.hour + r.minute)

/-- A day as the service wants it. -/
def day (d : Date) : String := String.ofList (fourDigits d.year ++ two d.month ++ two d.day)

private theorem raw_row {r : RawRow} (h : r.Ok) : rawDateTime (.int r.year) (.int r.doy) (.int (100 * r.hour + r.minute)) = .ok (some r.moment) := by
  obtain ⟨hy, hd, hh, hm⟩ := h
  have hy' : yearDays r.year ≤ 366 := by unfold yearDays; split <;> omega
  unfold rawDateTime
  dsimp only
  rw [if_pos ⟨hy.1, hy.2, by omega, by omega⟩, show (100 * r.hour + r.minute) / 100 = r.hour by omega, show (100 * r.hour + r.minute) % 100 = r.minute by omega,
    (day_of_year_index (by omega)).1 ⟨hd.1, hd.2, hh, hm⟩]
  rfl

private theorem raw_index (zones : String → Option (ℕ → Except PyErr ℤ)) {c0 tz : String} (names : List String) {u : ℕ → ℤ}
    (hz : zones (zoneOf tz) = some fun s => .ok (u s)) (hc : c0 ≠ "Year" ∧ c0 ≠ "DOY" ∧ c0 ≠ tz) (htz : tz ≠ "Year" ∧ tz ≠ "DOY") (rows : List RawRow)
    (hr : ∀ r ∈ rows, r.Ok) : formatIndexRaw zones ⟨c0 :: "Year" :: "DOY" :: tz :: names,
      (rows.map RawRow.line).map (fit (c0 :: "Year" :: "DOY" :: tz :: names).length)⟩ = .ok (rows.map fun r => some (u r.moment)) := by
  set header := c0 :: "Year" :: "DOY" :: tz :: names with hh
  unfold formatIndexRaw
  dsimp only
  rw [show header[3]? = some tz from rfl]
  dsimp only
  rw [column_fit _ _ _ (by simp [hh]), column_fit _ _ _ (by simp [hh]), column_fit _ _ _ (by simp [hh]),
    show header.idxOf "Year" = 1 by rw [hh, List.idxOf_cons_ne _ hc.1, List.idxOf_cons_self],
    show header.idxOf "DOY" = 2 by rw [hh, List.idxOf_cons_ne _ hc.2.1, List.idxOf_cons_ne _ (by decide), List.idxOf_cons_self],
    show header.idxOf tz = 3 by rw [hh, List.idxOf_cons_ne _ hc.2.2, List.idxOf_cons_ne _ htz.1.symm, List.idxOf_cons_ne _ htz.2.symm, List.idxOf_cons_self]]
  dsimp only
  rw [List.zip_map', List.zip_map', List.map_map, each_map _ _ (fun r => some r.moment) rows]
  · dsimp only
    rw [timezone_eq, localized_rows zones hz]
  · intro r h
    exact raw_row (hr r h)

/-- **C219** (raw data from the service): the service is asked for the site and the two days; whatever number of fields its lines have beyond the header, the index
has the moments the rows name, and the columns are those of the header with their own values. -/
theorem nrel (zones : String → Option (ℕ → Except PyErr ℤ)) (get : List (String × String) → Except PyErr Csv) (site : String) (start stop : Date)
    {c0 tz : String} (names : List String) {u : ℕ → ℤ} (hz : zones (zoneOf tz) = some fun s => .ok (u s)) (hc : c0 ≠ "Year" ∧ c0 ≠ "DOY" ∧ c0 ≠ tz)
    (htz : tz ≠ "Year" ∧ tz ≠ "DOY") (rows : List RawRow) (hr : ∀ r ∈ rows, r.Ok) (rename : String → Option String)
    (hg : get [("site", site), ("begin", day start), ("end", day stop)] = .ok ⟨c0 :: "Year" :: "DOY" :: tz :: names, rows.map RawRow.line⟩) :
    ∃ data, readMidcFromNrel zones get site start stop rename = .ok (rows.map fun r => some (u r.moment), data) ∧
      Holds data (c0 :: "Year" :: "DOY" :: tz :: names) (rows.map RawRow.line) rename 0 := by
  have hday : ∀ d, ymdText d = day d := fun d => rfl
  refine ⟨_, ?_, holds_of rename _ 0 rfl⟩
  unfold readMidcFromNrel
  rw [hday, hday, hg]
  dsimp only
  unfold readMidc readCsv
  dsimp only
  rw [if_pos le_rfl, List.take_length]
  dsimp only
  rw [if_pos rfl, raw_index zones names hz hc htz rows hr]
  rfl

/-- An error of the service is passed on. -/
theorem nrel_error (zones : String → Option (ℕ → Except PyErr ℤ)) (get : List (String × String) → Except PyErr Csv) (site : String) (start stop : Date)
    (rename : String → Option String) {e : PyErr} (hg : get [("site", site), ("begin", day start), ("end", day stop)] = .error e) :
    readMidcFromNrel zones get site start stop rename = .error e := by
  have hday : ∀ d, ymdText d = day d := fun d => rfl
  unfold readMidcFromNrel
  rw [hday, hday, hg]

/-- **C219** (files whose lines are longer than the header): `read_midc` without a limit on the columns, if it does not raise, puts every value as many columns too far to
the left as the first line has fields too many. -/
theorem shifted (zones : String → Option (ℕ → Except PyErr ℤ)) (header : List String) (line : List Cell) (lines : List (List Cell)) (rename : String → Option String) (raw : Bool)
    {index : List (Option ℤ)} {data : Frame} (h : readMidc zones ⟨header, line :: lines⟩ rename raw none = .ok (index, data)) :
    Holds data header (line :: lines) rename (line.length - header.length) := by
  unfold readMidc at h
  cases hc : readCsv none ⟨header, line :: lines⟩ with
  | error e => rw [hc] at h; exact absurd h (by simp)
  | ok d =>
    rw [hc] at h
    dsimp only at h
    have hd : d = ⟨header, (line :: lines).map fun l => (fit (max header.length line.length) l).drop (max header.length line.length - header.length)⟩ := by
      unfold readCsv at hc
      dsimp only at hc
      split at hc
      · exact absurd hc (by simp)
      · exact (Except.ok.inj hc).symm
    split at h
    · exact absurd h (by simp)
    · have := (Prod.mk.inj (Except.ok.inj h)).2
      rw [← this, hd]
      have e : line.length - header.length = max header.length line.length - header.length := by omega
      rw [e]
      have e' : max header.length line.length = header.length + (max header.length line.length - header.length) := by omega
      exact holds_of rename _ _ e'

/-- **C219** (maps of the stations): a station's map never takes two columns to one name, and gives only these names. -/
theorem station_maps : (stationMaps.map Prod.fst).Nodup ∧ ∀ p ∈ stationMaps, (p.2.map Prod.fst).Nodup ∧ (p.2.map Prod.snd).Nodup ∧
    ∀ q ∈ p.2, q.2 ∈ ["ghi", "dni", "dni_chp1", "dni_nip", "dhi", "temp_air", "wind_speed", "relative_humidity"] := by decide +kernel

/-! ### Witnesses -/

/-- The zones of the example: offsets in hours. -/
def demoZones : String → Option (ℕ → Except PyErr ℤ)
  | "MST" => some fun s => .ok (instant s (-7 * 3600))
  | "Etc/GMT+8" => some fun s => .ok (instant s (-8 * 3600))
  | _ => none

/-- 1 February 2018, 5:07, written with and without leading zeros. -/
def demoRows : List Row := [⟨2018, 2, 1, 5, 7, "02/01/2018".toList, "05:07".toList, [.num 1]⟩, ⟨2018, 2, 1, 5, 7, "2/1/2018".toList, "5:07".toList, []⟩]

private theorem demoRows_ok : ∀ r ∈ demoRows, r.Ok ∧ r.values.length ≤ 1 := by
  intro r hr
  simp only [demoRows, List.mem_cons, List.not_mem_nil, or_false] at hr
  rcases hr with rfl | rfl
  · exact ⟨⟨by decide +kernel, by decide, by decide, by decide, ⟨"02".toList, "01".toList, .inl ⟨by decide, by decide +kernel⟩, .inl ⟨by decide, by decide +kernel⟩, by decide +kernel⟩,
      ⟨"05".toList, "07".toList, .inl ⟨by decide, by decide +kernel⟩, .inl ⟨by decide, by decide +kernel⟩, by decide +kernel⟩⟩, by decide⟩
  · exact ⟨⟨by decide +kernel, by decide, by decide, by decide, ⟨"2".toList, "1".toList, .inr ⟨by decide, by decide +kernel⟩, .inr ⟨by decide, by decide +kernel⟩, by decide +kernel⟩,
      ⟨"5".toList, "07".toList, .inr ⟨by decide, by decide +kernel⟩, .inl ⟨by decide, by decide +kernel⟩, by decide +kernel⟩⟩, by decide⟩

/-- The two rows, and two lines without date or time. -/
example := midc_file demoZones (tz := "PST") ["Global CMP22 [W/m^2]"] rfl (by decide)
  (demoRows.map (fun r => (r.line, some r.moment)) ++ [([.missing, .text "05:07".toList], none), ([.text "2/1/2018".toList, .missing, .num 3], none)]) (by
    intro r hr
    rcases List.mem_append.mp hr with h | h
    · obtain ⟨q, hq, rfl⟩ := List.mem_map.mp h
      have := demoRows_ok q hq
      exact ⟨.row q this.1, by simp only [Row.line, List.length_cons, List.length_nil]; omega⟩
    · simp only [List.mem_cons, List.not_mem_nil, or_false] at h
      rcases h with rfl | rfl
      · exact ⟨.no_date _ _, by simp⟩
      · exact ⟨.no_time _ _, by simp⟩)
  (fun n => if n = "Global CMP22 [W/m^2]" then some "ghi" else none)

example := midc_bad_date demoZones (tz := "PST") [] (by decide) [[.text "002/01/2018".toList, .text "05:07".toList]] (by
  intro l hl
  simp only [List.mem_cons, List.not_mem_nil, or_false] at hl
  subst hl
  exact ⟨by simp, .inl ⟨"002".toList, "01".toList, "2018".toList, "05:07".toList, [], by decide +kernel, by decide +kernel, congrArg (fun t => [Cell.text t, Cell.text "05:07".toList]) (by decide +kernel), by decide +kernel⟩⟩)
  ⟨_, List.mem_cons_self, "002".toList, "01".toList, "2018".toList, "05:07".toList, [], by decide +kernel, by decide +kernel, congrArg (fun t => [Cell.text t, Cell.text "05:07".toList]) (by decide +kernel), by decide +kernel⟩ (fun _ => none)

example := midc_no_date demoZones ["DATE", "PST"] (by decide) (by decide) [[.missing, .missing]] (by simp) (fun _ => none)

/-- Two lines of raw data with fields that the header does not name. -/
def demoRaw : List RawRow := [⟨.int 10, 2018, 32, 0, 5, [.num 1, .num 2]⟩, ⟨.int 10, 2018, 32, 23, 59, [.num 1, .num 2, .num 3]⟩]

private theorem demoRaw_ok : ∀ r ∈ demoRaw, r.Ok := by
  intro r hr
  simp only [demoRaw, List.mem_cons, List.not_mem_nil, or_false] at hr
  rcases hr with rfl | rfl
  · exact ⟨by decide, by decide +kernel, by decide, by decide⟩
  · exact ⟨by decide, by decide +kernel, by decide, by decide⟩

example := nrel demoZones (fun _ => .ok ⟨["Unnamed: 0", "Year", "DOY", "MST", "Global"], demoRaw.map RawRow.line⟩) "NWTC" ⟨2018, 2, 1⟩ ⟨2018, 2, 1⟩ ["Global"] rfl
  (by decide) (by decide) demoRaw demoRaw_ok (fun _ => none) rfl

example := nrel_error demoZones (fun _ => .error .runtimeError) "NWTC" ⟨2018, 2, 1⟩ ⟨2018, 2, 1⟩ (fun _ => none) rfl

/-- A line with one field more than the header, which `read_midc` takes for a row label. -/
example := shifted demoZones ["Unnamed: 0", "Year", "DOY", "MST"] [.int 7, .int 10, .int 2018, .int 32, .int 5] [] (fun _ => none) true
  (index := [some (instant (at' 2018 1 1 (1440 * 31 + 5)) (-7 * 3600))]) (data := ⟨["Unnamed: 0", "Year", "DOY", "MST"], [[.int 10, .int 2018, .int 32, .int 5]]⟩)
  (by
    have := raw_index demoZones (c0 := "Unnamed: 0") (tz := "MST") [] (u := fun s => instant s (-7 * 3600)) rfl (by decide) (by decide)
      [⟨.int 10, 2018, 32, 0, 5, []⟩] (by
        intro r hr
        simp only [List.mem_cons, List.not_mem_nil, or_false] at hr
        subst hr
        exact ⟨by decide, by decide +kernel, by decide, by decide⟩)
    have e : readCsv none ⟨["Unnamed: 0", "Year", "DOY", "MST"], [[.int 7, .int 10, .int 2018, .int 32, .int 5]]⟩ =
        .ok ⟨["Unnamed: 0", "Year", "DOY", "MST"], [[.int 10, .int 2018, .int 32, .int 5]]⟩ := rfl
    unfold readMidc
    rw [e]
    dsimp only
    rw [if_pos rfl]
    have this' : formatIndexRaw demoZones ⟨["Unnamed: 0", "Year", "DOY", "MST"], [[.int 10, .int 2018, .int 32, .int 5]]⟩ =
      .ok [some (instant (at' 2018 1 1 (1440 * 31 + 5)) (-7 * 3600))] := this
    rw [this']
    rfl)

end Pvlib.Props.Midc
end
