import Verif.Props.Tmy3
import Mathlib.Tactic.Linarith
import Mathlib.Data.Rat.Cast.Order
import Mathlib.Tactic.NormNum

/-! # Properties C157-C159: the time index of TMY2, EPW, SRML and station network files -/

namespace Pvlib.Props.StationIndex
open Pvlib Pvlib.Calendar Pvlib.IoIndex

/-! ### Specification -/

/-- The moment `hour:minute` of a calendar day, in minutes since the beginning of day 0. -/
def at' (year month day minute : ℕ) : ℕ := 1440 * (⟨year, month, day⟩ : Date).ordinal + minute

/-- The integer HHMM of a time of day in minutes (1440 is 2400). -/
def hhmm (minute : ℕ) : ℕ := 100 * (minute / 60) + minute % 60

/-- Hour after hour of a year of 365 days, from the hour ending 1:00 on 1 January. -/
def HourAfterHour {α : Type} (month day hour : α → ℕ) (rows : List α) : Prop :=
  ∀ i r, rows[i]? = some r → (⟨1, month r, day r⟩ : Date).Valid ∧ (⟨1, month r, day r⟩ : Date).doy = i / 24 + 1 ∧ hour r = i % 24 + 1

/-! ### Errors -/

private theorem each_error {α β : Type} {f : α → Except PyErr β} {g : α → β} {l rest : List α} {a : α} {e : PyErr}
    (h : ∀ a ∈ l, f a = .ok (g a)) (ha : f a = .error e) : each f (l ++ a :: rest) = .error e := by
  induction l with
  | nil => simp [each, ha]
  | cons b bs ih => rw [List.cons_append, each, h b (by simp), ih (fun c hc => h c (by simp [hc]))]

private theorem valid_in {m d c : ℕ} (h : (⟨1, m, d⟩ : Date).Valid) (hc : 1 ≤ c) : (⟨c, m, d⟩ : Date).Valid := by
  obtain ⟨-, h1, h2, h3, h4⟩ := h
  have hnl1 : leap 1 = false := by decide
  refine ⟨hc, h1, h2, h3, ?_⟩
  dsimp only at *
  interval_cases m <;> simp only [daysInMonth, hnl1, Bool.false_eq_true, if_false] at h4 ⊢ <;> (try split) <;> omega

private theorem ordinal_in {m d c : ℕ} (h : (⟨1, m, d⟩ : Date).Valid) : (⟨c, m, d⟩ : Date).ordinal =
    yearStart c + (⟨1, m, d⟩ : Date).doy + (if leap c = true ∧ 60 ≤ (⟨1, m, d⟩ : Date).doy then 1 else 0) := by
  obtain ⟨-, h1, h2, h3, h4⟩ := h
  have hnl1 : leap 1 = false := by decide
  unfold Date.ordinal Date.doy
  dsimp only at *
  cases hlc : leap c <;>
  interval_cases m <;> simp only [daysBefore, daysInMonth, hnl1, hlc, Bool.false_eq_true, if_false, if_true, false_and, true_and] at h4 ⊢ <;> (try split_ifs) <;> omega

/-! ### TMY2 -/

/-- The index of a TMY2 file: every row in the year of the first row, at the beginning of the hour it describes (hours count from 1).
It exists as soon as the dates do. -/
theorem tmy2_index {r : Tmy2Row} {rs : List Tmy2Row}
    (h : ∀ x ∈ r :: rs, (⟨1900 + r.yy, x.month, x.day⟩ : Date).Valid ∧ 1 ≤ x.hour ∧ x.hour ≤ 24) :
    tmy2Index (r :: rs) = .ok ((r :: rs).map fun x => at' (1900 + r.yy) x.month x.day (60 * (x.hour - 1))) := by
  unfold tmy2Index
  apply Tmy3.each_ok
  intro x hx
  obtain ⟨hv, hh⟩ := h x hx
  unfold tmy2Stamp ofYMD
  rw [Nat.add_comm r.yy, if_pos hv]
  dsimp only
  rw [if_pos hh]
  rfl

example := tmy2_index (r := ⟨62, 1, 1, 1⟩) (rs := [⟨62, 2, 28, 24⟩])
  (by intro x hx; simp only [List.mem_cons, List.not_mem_nil, or_false] at hx; rcases hx with rfl | rfl <;> decide +kernel)

/-- A row whose date does not exist in the year of the first row (29 February of another year) raises ValueError. -/
theorem tmy2_leap_day {r x : Tmy2Row} {rs rest : List Tmy2Row}
    (h : ∀ x ∈ r :: rs, (⟨1900 + r.yy, x.month, x.day⟩ : Date).Valid ∧ 1 ≤ x.hour ∧ x.hour ≤ 24)
    (hx : ¬ (⟨1900 + r.yy, x.month, x.day⟩ : Date).Valid) : tmy2Index (r :: rs ++ x :: rest) = .error .valueError := by
  rw [List.cons_append, tmy2Index, ← List.cons_append]
  refine each_error (g := fun x => at' (1900 + r.yy) x.month x.day (60 * (x.hour - 1))) ?_ ?_
  · intro x hx
    obtain ⟨hv, hh⟩ := h x hx
    unfold tmy2Stamp ofYMD
    rw [Nat.add_comm r.yy, if_pos hv]
    dsimp only
    rw [if_pos hh]
    rfl
  · unfold tmy2Stamp ofYMD
    rw [Nat.add_comm r.yy, if_neg hx]

/-- 29 February in a file whose first year is 1962. -/
example := tmy2_leap_day (r := ⟨62, 1, 1, 1⟩) (x := ⟨64, 2, 29, 1⟩) (rs := [⟨64, 2, 28, 24⟩]) (rest := [])
  (by intro x hx; simp only [List.mem_cons, List.not_mem_nil, or_false] at hx; rcases hx with rfl | rfl <;> decide +kernel)
  (by decide +kernel)

/-- A typical year of 365 days: row `i` (from 0) is `i` hours after the beginning of the first row's year, if that is no leap year,
whatever the years of the other rows. -/
theorem tmy2_typical {r : Tmy2Row} {rs : List Tmy2Row} (hn : (r :: rs).length ≤ 8760) (hl : leap (1900 + r.yy) = false)
    (h : HourAfterHour Tmy2Row.month Tmy2Row.day Tmy2Row.hour (r :: rs)) :
    ∃ index, tmy2Index (r :: rs) = .ok index ∧ index.length = (r :: rs).length ∧
      ∀ i, i < (r :: rs).length → index[i]? = some (at' (1900 + r.yy) 1 1 (60 * i)) := by
  have hall : ∀ x ∈ r :: rs, (⟨1900 + r.yy, x.month, x.day⟩ : Date).Valid ∧ 1 ≤ x.hour ∧ x.hour ≤ 24 := by
    intro x hx
    obtain ⟨i, hi⟩ := List.mem_iff_getElem?.mp hx
    obtain ⟨h1, h2, h3⟩ := h i x hi
    exact ⟨valid_in h1 (by omega), by omega, by omega⟩
  refine ⟨_, tmy2_index hall, by simp, ?_⟩
  intro i hi
  rw [List.getElem?_map, List.getElem?_eq_getElem hi, Option.map_some]
  obtain ⟨h1, h2, h3⟩ := h i _ (List.getElem?_eq_getElem hi)
  congr 1
  unfold at'
  rw [ordinal_in h1, h2, h3, hl]
  have : (⟨1900 + r.yy, 1, 1⟩ : Date).ordinal = yearStart (1900 + r.yy) + 1 := rfl
  rw [this]
  simp only [Bool.false_eq_true, false_and, if_false]
  omega

example := tmy2_typical (r := ⟨62, 1, 1, 1⟩) (rs := [⟨79, 1, 1, 2⟩]) (by decide) (by decide +kernel) (by
  intro i r hr
  match i, hr with
  | 0, hr => obtain rfl := Option.some.inj hr; decide
  | 1, hr => obtain rfl := Option.some.inj hr; decide
  | n + 2, hr => exact absurd hr (by simp))

/-- The fields of a TMY2 line follow one another without gap or overlap: together they are the line from the second character on, and
every field has its width, if the line is long enough. -/
theorem fields_contiguous (c : ℕ) (ws : List ℕ) (line : List Char) (h : c + ws.sum ≤ line.length) :
    (cut c ws line).flatten = (line.drop c).take ws.sum ∧ (cut c ws line).map List.length = ws := by
  induction ws generalizing c with
  | nil => simp [cut]
  | cons w ws ih =>
    rw [List.sum_cons] at h
    obtain ⟨h1, h2⟩ := ih (c + w) (by omega)
    have hs : slice line c (c + w) = (line.drop c).take w := by
      unfold slice
      rw [List.drop_take, Nat.add_sub_cancel_left]
    constructor
    · rw [cut, List.flatten_cons, h1, hs, List.sum_cons, List.take_add, List.drop_drop]
    · rw [cut, List.map_cons, h2, hs, List.length_take, List.length_drop, Nat.min_eq_left (by omega)]

example := fields_contiguous 2 [3, 4] "abcdefghijk".toList (by decide)

/-- The layout of TMY2 lines: 70 columns with distinct names and one width each, 142 characters in all. -/
theorem tmy2_layout : tmy2Widths.length = 70 ∧ tmy2Columns.length = 70 ∧ tmy2Columns.Nodup ∧
    1 + (tmy2Widths.map Prod.fst).sum = 142 ∧ (∀ p ∈ tmy2Widths, p.2 = 'd' ∨ p.2 = 's') := by decide +kernel

/-- The header's angles: degrees and minutes, negative unless the hemisphere letter is the positive one. -/
theorem header_angle (d m : ℚ) (h p : String) : tmy2Angle d m h p = if h = p then d + m / 60 else -(d + m / 60) := by
  unfold tmy2Angle
  split <;> ring

/-! ### EPW -/

/-- The index of an EPW file: every row in its own year, or all in `coerce_year`, at the beginning of the hour it describes. -/
theorem epw_index {rows : List EpwRow} {c : Option ℕ}
    (h : ∀ x ∈ rows, (⟨c.getD x.year, x.month, x.day⟩ : Date).Valid ∧ 1 ≤ x.hour ∧ x.hour ≤ 24) :
    epwIndex rows c = .ok (rows.map fun x => at' (c.getD x.year) x.month x.day (60 * (x.hour - 1))) := by
  unfold epwIndex
  apply Tmy3.each_ok
  intro x hx
  obtain ⟨hv, hh⟩ := h x hx
  unfold epwStamp ofYMD
  rw [if_pos hv]
  dsimp only
  rw [if_pos hh]
  rfl

example := epw_index (rows := [⟨2012, 2, 29, 24⟩]) (c := some 2016) (by intro x hx; obtain rfl := List.mem_singleton.mp hx; decide +kernel)

/-- Coercing a file with a 29 February to a year that is no leap year raises ValueError. -/
theorem epw_leap_day {rows rest : List EpwRow} {x : EpwRow} {c : ℕ} (hc : leap c = false)
    (h : ∀ x ∈ rows, (⟨c, x.month, x.day⟩ : Date).Valid ∧ 1 ≤ x.hour ∧ x.hour ≤ 24) (hm : x.month = 2) (hd : x.day = 29) :
    epwIndex (rows ++ x :: rest) (some c) = .error .valueError := by
  refine each_error (g := fun x => at' c x.month x.day (60 * (x.hour - 1))) ?_ ?_
  · intro x hx
    obtain ⟨hv, hh⟩ := h x hx
    unfold epwStamp ofYMD
    rw [Option.getD_some, if_pos hv]
    dsimp only
    rw [if_pos hh]
    rfl
  · have : ¬ (⟨c, x.month, x.day⟩ : Date).Valid := by
      rintro ⟨-, -, -, -, h4⟩
      dsimp only at h4
      rw [hm, hd] at h4
      have : daysInMonth c 2 = 28 := by
        show (if leap c = true then 29 else 28) = 28
        rw [hc]; rfl
      omega
    unfold epwStamp ofYMD
    rw [Option.getD_some, if_neg this]

example := epw_leap_day (rows := [⟨2012, 2, 28, 24⟩]) (rest := []) (x := ⟨2012, 2, 29, 1⟩) (c := 2015) (by decide +kernel)
  (by intro x hx; obtain rfl := List.mem_singleton.mp hx; decide +kernel) rfl rfl

/-- A typical year of 365 days coerced to any year: row `i` is `i` hours after its beginning, with 29 February skipped. -/
theorem epw_typical {rows : List EpwRow} (hn : rows.length ≤ 8760) {c : ℕ} (hc : 1 ≤ c)
    (h : HourAfterHour EpwRow.month EpwRow.day EpwRow.hour rows) :
    ∃ index, epwIndex rows (some c) = .ok index ∧ index.length = rows.length ∧
      ∀ i, i < rows.length → index[i]? = some (at' c 1 1 (60 * i) + if leap c = true ∧ 1416 ≤ i then 1440 else 0) := by
  have hall : ∀ x ∈ rows, (⟨(some c).getD x.year, x.month, x.day⟩ : Date).Valid ∧ 1 ≤ x.hour ∧ x.hour ≤ 24 := by
    intro x hx
    obtain ⟨i, hi⟩ := List.mem_iff_getElem?.mp hx
    obtain ⟨h1, h2, h3⟩ := h i x hi
    exact ⟨valid_in h1 hc, by omega, by omega⟩
  refine ⟨_, epw_index hall, by simp, ?_⟩
  intro i hi
  rw [List.getElem?_map, List.getElem?_eq_getElem hi, Option.map_some]
  obtain ⟨h1, h2, h3⟩ := h i _ (List.getElem?_eq_getElem hi)
  congr 1
  unfold at'
  rw [Option.getD_some, ordinal_in h1, h2, h3]
  have : (⟨c, 1, 1⟩ : Date).ordinal = yearStart c + 1 := rfl
  rw [this]
  cases leap c
  · simp only [Bool.false_eq_true, false_and, if_false]; omega
  · simp only [true_and]; split_ifs <;> omega

example := epw_typical (rows := [⟨2012, 1, 1, 1⟩, ⟨2003, 1, 1, 2⟩]) (by decide) (c := 2016) (by decide) (by
  intro i r hr
  match i, hr with
  | 0, hr => obtain rfl := Option.some.inj hr; decide
  | 1, hr => obtain rfl := Option.some.inj hr; decide
  | n + 2, hr => exact absurd hr (by simp))

/-! ### Time zones of TMY2, TMY3 and EPW files -/

/-- The offset in whole seconds: exact if the time zone of the header is a whole number of seconds, and otherwise cut towards zero;
times are later in UTC west of Greenwich, and steps of the index keep their length. -/
theorem localized (index : List ℕ) (TZ : ℚ) :
    (∀ k : ℤ, TZ * 3600 = k → localize index TZ = index.map fun t : ℕ => 60 * (t : ℤ) - k) ∧
    (∃ k : ℤ, |(k : ℚ)| ≤ |TZ * 3600| ∧ |TZ * 3600 - k| < 1 ∧ localize index TZ = index.map fun t : ℕ => 60 * (t : ℤ) - k) := by
  constructor
  · intro k hk
    unfold localize instant pyInt
    rw [hk]
    simp only [Int.floor_intCast, Int.ceil_intCast, ite_self]
  · refine ⟨pyInt (TZ * 3600), ?_, ?_, rfl⟩
    · unfold pyInt
      generalize TZ * 3600 = x
      split
      · rename_i h
        have h0 : (0 : ℤ) ≤ ⌊x⌋ := Int.floor_nonneg.mpr h
        rw [abs_of_nonneg h, abs_of_nonneg (by exact_mod_cast h0)]
        exact Int.floor_le x
      · rename_i h
        push Not at h
        have h0 : ⌈x⌉ ≤ 0 := by rw [Int.ceil_le]; simpa using h.le
        rw [abs_of_neg h, abs_of_nonpos (by exact_mod_cast h0)]
        have := Int.le_ceil x
        linarith
    · unfold pyInt
      generalize TZ * 3600 = x
      split
      · rw [abs_of_nonneg (by linarith [Int.floor_le x])]
        linarith [Int.lt_floor_add_one x]
      · rw [abs_of_nonpos (by linarith [Int.le_ceil x])]
        linarith [Int.ceil_lt_add_one x]

/-! ### SRML -/

/-- SRML files: rows are labelled with the end of the interval, as HHMM with midnight as 2400.  For a file of intervals of `n` minutes
that starts with the first two intervals of a day, the index holds the beginnings of the intervals, on the same day. -/
theorem srml_index {year n : ℕ} (hy : 1 ≤ year) (hn : (1 ≤ n ∧ n ≤ 29) ∨ n = 60) {d0 d1 : ℕ} {rest : List (ℕ × ℕ)}
    (h : ∀ p ∈ (d0, n) :: (d1, 2 * n) :: rest, 1 ≤ p.1 ∧ p.1 ≤ yearDays year ∧ n ≤ p.2 ∧ p.2 ≤ 1440)
    (hh : n = 60 → ∀ p ∈ rest, p.2 % 60 = 0) :
    srmlIndex year (((d0, n) :: (d1, 2 * n) :: rest).map fun p => (p.1, (hhmm p.2 : ℤ))) =
      .ok (((d0, n) :: (d1, 2 * n) :: rest).map fun p => 1440 * (yearStart year + p.1) + (p.2 - n)) := by
  set rows : List (ℕ × ℕ) := (d0, n) :: (d1, 2 * n) :: rest with hrows
  have e : srmlIndex year (rows.map fun p => (p.1, (hhmm p.2 : ℤ))) =
      each (srmlStamp year ((hhmm (2 * n) : ℤ) - hhmm n)) (rows.map fun p => (p.1, (hhmm p.2 : ℤ))) := rfl
  have key : ∀ p ∈ rows, srmlStamp year ((hhmm (2 * n) : ℤ) - hhmm n) (p.1, (hhmm p.2 : ℤ)) = .ok (1440 * (yearStart year + p.1) + (p.2 - n)) := by
    intro p hp
    obtain ⟨h1, h2, h3, h4⟩ := h p hp
    have hoj : ofYJ year p.1 = .ok (yearStart year + p.1) := by unfold ofYJ; rw [if_pos ⟨hy, h1, h2⟩]
    have main : ∀ t : ℤ, t = hhmm (p.2 - n) → (if t < 0 then (.error .valueError : Except PyErr ℕ)
        else match ofYJ year p.1 with
          | .error e => .error e
          | .ok day => match ofHM (t.toNat / 100) (t.toNat % 100) with
            | .error e => .error e
            | .ok minute => .ok (stamp day minute)) = .ok (1440 * (yearStart year + p.1) + (p.2 - n)) := by
      intro t ht
      rw [hoj]
      have ht0 : ¬ t < 0 := by omega
      rw [if_neg ht0, ht, Int.toNat_natCast]
      dsimp only
      have e1 : hhmm (p.2 - n) / 100 = (p.2 - n) / 60 := by unfold hhmm; omega
      have e2 : hhmm (p.2 - n) % 100 = (p.2 - n) % 60 := by unfold hhmm; omega
      have : ofHM (hhmm (p.2 - n) / 100) (hhmm (p.2 - n) % 100) = .ok (p.2 - n) := by
        unfold ofHM
        rw [e1, e2, if_pos (by rcases hn with hn | hn <;> omega)]
        congr 1
        omega
      rw [this]
      rfl
    unfold srmlStamp
    dsimp only
    apply main
    rcases hn with ⟨hn1, hn2⟩ | hn
    · have ei : ((hhmm (2 * n) : ℤ) - hhmm n) = n := by unfold hhmm; omega
      rw [ei, if_neg (by omega)]
      by_cases hb : n ≤ p.2 % 60
      · have e3 : (hhmm p.2 : ℤ) - n = hhmm (p.2 - n) := by unfold hhmm; omega
        rw [e3, if_neg (by unfold hhmm; omega)]
      · have e3 : (hhmm p.2 : ℤ) - n = hhmm (p.2 - n) + 40 := by unfold hhmm; omega
        rw [e3, if_pos (by unfold hhmm; omega)]
        omega
    · have ei : ((hhmm (2 * n) : ℤ) - hhmm n) = 100 := by rw [hn]; decide
      rw [ei, if_pos rfl, hn]
      unfold hhmm
      rw [hn] at h3
      omega
  rw [e, Tmy3.each_ok (g := fun q : ℕ × ℤ => 1440 * (yearStart year + q.1) + (60 * (q.2.toNat / 100) + q.2.toNat % 100 - n)), List.map_map]
  · congr 1
    apply List.map_congr_left
    intro p hp
    show 1440 * (yearStart year + p.1) + (60 * (((hhmm p.2 : ℕ) : ℤ).toNat / 100) + ((hhmm p.2 : ℕ) : ℤ).toNat % 100 - n) = _
    rw [Int.toNat_natCast]
    unfold hhmm
    omega
  · intro q hq
    obtain ⟨p, hp, rfl⟩ := List.mem_map.mp hq
    rw [key p hp]
    congr 1
    dsimp only
    rw [Int.toNat_natCast]
    unfold hhmm
    omega

example := srml_index (year := 2020) (n := 15) (by decide) (by decide) (d0 := 60) (d1 := 60) (rest := [(60, 45), (366, 1440)])
  (by decide +kernel) (by decide)

/-- Half-hourly files (times 30, 100, 130, ...) cannot be read: the interval is taken to be 100 - 30 = 70, and the first time becomes
negative. -/
theorem srml_half_hourly (year d0 d1 : ℕ) (rest : List (ℕ × ℤ)) :
    srmlIndex year ((d0, (hhmm 30 : ℤ)) :: (d1, (hhmm 60 : ℤ)) :: rest) = .error .valueError := by
  have h1 : ((hhmm 60 : ℕ) : ℤ) - ((hhmm 30 : ℕ) : ℤ) = 70 := by decide
  have h2 : ((hhmm 30 : ℕ) : ℤ) = 30 := by decide
  unfold srmlIndex
  dsimp only
  rw [h1, h2]
  have h3 : srmlStamp year 70 (d0, 30) = .error .valueError := by
    unfold srmlStamp
    simp
  rw [each, h3]

/-- More generally no file of intervals of 30 to 59 minutes can be read. -/
theorem srml_coarse (year d0 d1 n : ℕ) (hn : 30 ≤ n ∧ n ≤ 59) (rest : List (ℕ × ℤ)) :
    srmlIndex year ((d0, (hhmm n : ℤ)) :: (d1, (hhmm (2 * n) : ℤ)) :: rest) = .error .valueError := by
  have h1 : ((hhmm (2 * n) : ℕ) : ℤ) - ((hhmm n : ℕ) : ℤ) = n + 40 := by unfold hhmm; omega
  have h2 : ((hhmm n : ℕ) : ℤ) = n := by unfold hhmm; omega
  unfold srmlIndex
  dsimp only
  rw [h1, h2]
  have h3 : srmlStamp year ((n : ℤ) + 40) (d0, (n : ℤ)) = .error .valueError := by
    unfold srmlStamp
    have e1 : ((n : ℤ) - ((n : ℤ) + 40)) = -40 := by omega
    dsimp only
    rw [e1, if_pos (by split_ifs <;> omega)]
  rw [each, h3]

example := srml_coarse 2020 1 1 45 (by norm_num) []

/-- The index is in Pacific Standard Time all year: noon is 20:00 UTC. -/
theorem srml_zone (day : ℤ) : 86400 * day + 12 * 3600 - srmlOffset = 86400 * day + 20 * 3600 := by
  unfold srmlOffset; omega

/-- A file with fewer than two rows raises KeyError. -/
theorem srml_short (year : ℕ) (r : List (ℕ × ℤ)) (h : r.length ≤ 1) : srmlIndex year r = .error (.keyError "1") := by
  match r, h with
  | [], _ => rfl
  | [_], _ => rfl

example := srml_short 2020 [(1, 15)] (by decide)

/-! ### Station networks -/

/-- SURFRAD and MIDC raw files: year, day of the year, hour, minute. -/
theorem day_of_year_index {y j h m : ℕ} (hy : 1 ≤ y) :
    (1 ≤ j ∧ j ≤ yearDays y ∧ h ≤ 23 ∧ m ≤ 59 → yjhm y j h m = .ok (at' y 1 1 (1440 * (j - 1) + 60 * h + m))) ∧
    (¬ (1 ≤ j ∧ j ≤ yearDays y ∧ h ≤ 23 ∧ m ≤ 59) → yjhm y j h m = .error .valueError) := by
  constructor
  · rintro ⟨h1, h2, h3, h4⟩
    unfold yjhm ofYJ ofHM
    rw [if_pos ⟨hy, h1, h2⟩, if_pos ⟨h3, h4⟩]
    have : (⟨y, 1, 1⟩ : Date).ordinal = yearStart y + 1 := rfl
    unfold stamp at'
    rw [this]
    dsimp only
    congr 1
    omega
  · intro hn
    unfold yjhm ofYJ ofHM
    by_cases h1 : 1 ≤ y ∧ 1 ≤ j ∧ j ≤ yearDays y
    · rw [if_pos h1, if_neg (by omega)]
    · rw [if_neg h1]

example := (day_of_year_index (y := 2020) (j := 366) (h := 23) (m := 59) (by decide)).1 (by decide +kernel)
example := (day_of_year_index (y := 2019) (j := 366) (h := 23) (m := 59) (by decide)).2 (by decide +kernel)

/-- The same day by month and day or by day of the year: SOLRAD and SURFRAD files with the same moment have the same index. -/
theorem networks_agree {y mo d h m : ℕ} (hv : (⟨y, mo, d⟩ : Date).Valid) :
    ymdhm y mo d h m = yjhm y (⟨y, mo, d⟩ : Date).doy h m ∧
    (h ≤ 23 → m ≤ 59 → ymdhm y mo d h m = .ok (at' y mo d (60 * h + m))) := by
  have hd := doy_le hv
  constructor
  · unfold ymdhm yjhm ofYMD ofYJ
    rw [if_pos hv, if_pos ⟨hv.1, hd.1, hd.2⟩]
    rfl
  · intro h3 h4
    unfold ymdhm ofYMD ofHM
    rw [if_pos hv, if_pos ⟨h3, h4⟩]
    rfl

example := networks_agree (y := 2020) (mo := 2) (d := 29) (h := 12) (m := 30) (by decide +kernel)

/-- CRN: date YYYYMMDD and time HHMM written without leading zeros. -/
theorem crn_index {y mo d t : ℕ} (hv : (⟨y, mo, d⟩ : Date).Valid) (hy : 1000 ≤ y) (hy' : y ≤ 9999) (ht : t < 1440) :
    crnStamp (10000 * y + 100 * mo + d) (hhmm t) = .ok (at' y mo d t) := by
  obtain ⟨-, h1, h2, h3, h4⟩ := hv
  dsimp only at h1 h2 h3 h4
  have h31 : daysInMonth y mo ≤ 31 := by unfold daysInMonth; split <;> (try split) <;> omega
  unfold crnStamp
  have ha : 10000000 ≤ 10000 * y + 100 * mo + d ∧ 10000 * y + 100 * mo + d < 100000000 ∧ hhmm t < 10000 := by unfold hhmm; omega
  rw [if_pos ha]
  have e1 : (10000 * y + 100 * mo + d) / 10000 = y := by omega
  have e2 : (10000 * y + 100 * mo + d) / 100 % 100 = mo := by omega
  have e3 : (10000 * y + 100 * mo + d) % 100 = d := by omega
  have e4 : hhmm t / 100 = t / 60 := by unfold hhmm; omega
  have e5 : hhmm t % 100 = t % 60 := by unfold hhmm; omega
  rw [e1, e2, e3, e4, e5, (networks_agree ⟨by dsimp only; omega, h1, h2, h3, h4⟩).2 (by omega) (by omega)]
  congr 1
  unfold at'
  omega

example := crn_index (y := 2020) (mo := 2) (d := 29) (t := 545) (by decide +kernel) (by decide) (by decide) (by decide)

/-- BSRN: the day and minute columns of a monthly file. -/
theorem bsrn_index {y mo d t : ℕ} (hv : (⟨y, mo, d⟩ : Date).Valid) : bsrnStamp y mo d t = .ok (at' y mo d t) := by
  obtain ⟨h0, h1, h2, h3, h4⟩ := hv
  dsimp only at h0 h1 h2 h3 h4
  have : (⟨y, mo, 1⟩ : Date).Valid := ⟨h0, h1, h2, le_rfl, h3.trans h4⟩
  unfold bsrnStamp ofYMD
  rw [if_pos this]
  dsimp only
  unfold at' Date.ordinal Date.doy
  dsimp only
  congr 1
  omega

/-! ### Witnesses -/

/-- 15 minute data: 0:15, 0:30, ..., 24:00 of 29 February 2020 (day 60). -/
example : srmlIndex 2020 [(60, 15), (60, 30), (60, 45), (60, 100), (60, 2400)] =
    .ok ([0, 15, 30, 45, 23 * 60 + 45].map (at' 2020 2 29)) := by decide +kernel

example : tmy2Index [⟨62, 1, 1, 1⟩, ⟨62, 1, 1, 2⟩] = .ok [at' 1962 1 1 0, at' 1962 1 1 60] := by decide +kernel

example : crnStamp 20190228 905 = .ok (at' 2019 2 28 545) := by decide +kernel

example : HourAfterHour Tmy2Row.month Tmy2Row.day Tmy2Row.hour [⟨62, 1, 1, 1⟩, ⟨79, 1, 1, 2⟩] := by
  intro i r hr
  match i, hr with
  | 0, hr => obtain rfl := Option.some.inj hr; decide
  | 1, hr => obtain rfl := Option.some.inj hr; decide
  | n + 2, hr => exact absurd hr (by simp)

example : localize [0] (-5 : ℚ) = [18000] := by rw [(localized [0] (-5)).1 (-18000) (by norm_num)]; rfl

end Pvlib.Props.StationIndex
