import Verif.Base.Py
import Mathlib.Tactic.IntervalCases

/-! # The proleptic Gregorian calendar, as used by Python's `datetime` and by pandas

Days are numbered as by `date.toordinal()` (1 January of year 1 is day 1).  Bounds of representable years are not modelled. -/

namespace Pvlib.Calendar

/-- Leap years. -/
def leap (y : ℕ) : Bool := y % 4 = 0 ∧ (y % 100 ≠ 0 ∨ y % 400 = 0)

/-- Days in month `m` of year `y`; 0 if there is no such month. -/
def daysInMonth (y m : ℕ) : ℕ :=
  match m with
  | 1 => 31 | 2 => if leap y then 29 else 28 | 3 => 31 | 4 => 30 | 5 => 31 | 6 => 30
  | 7 => 31 | 8 => 31 | 9 => 30 | 10 => 31 | 11 => 30 | 12 => 31
  | _ => 0

/-- Days in year `y`. -/
def yearDays (y : ℕ) : ℕ := if leap y then 366 else 365

/-- Days of year `y` before month `m`. -/
def daysBefore (y m : ℕ) : ℕ :=
  match m with
  | 1 => 0 | 2 => 31
  | 3 => 59 + (if leap y then 1 else 0) | 4 => 90 + (if leap y then 1 else 0) | 5 => 120 + (if leap y then 1 else 0)
  | 6 => 151 + (if leap y then 1 else 0) | 7 => 181 + (if leap y then 1 else 0) | 8 => 212 + (if leap y then 1 else 0)
  | 9 => 243 + (if leap y then 1 else 0) | 10 => 273 + (if leap y then 1 else 0) | 11 => 304 + (if leap y then 1 else 0)
  | 12 => 334 + (if leap y then 1 else 0)
  | _ => 0

/-- Days before 1 January of year `y`. -/
def yearStart (y : ℕ) : ℕ := 365 * (y - 1) + (y - 1) / 4 - (y - 1) / 100 + (y - 1) / 400

/-- A calendar date. -/
structure Date where
  (year month day : ℕ)
  deriving DecidableEq

/-- Dates that exist. -/
def Date.Valid (d : Date) : Prop := 1 ≤ d.year ∧ 1 ≤ d.month ∧ d.month ≤ 12 ∧ 1 ≤ d.day ∧ d.day ≤ daysInMonth d.year d.month

instance (d : Date) : Decidable d.Valid := by unfold Date.Valid; infer_instance

/-- Day of the year, from 1. -/
def Date.doy (d : Date) : ℕ := daysBefore d.year d.month + d.day

/-- Day number. -/
def Date.ordinal (d : Date) : ℕ := yearStart d.year + d.doy

/-- The next day: `d + timedelta(days=1)`. -/
def Date.next (d : Date) : Date :=
  if d.day < daysInMonth d.year d.month then ⟨d.year, d.month, d.day + 1⟩
  else if d.month < 12 then ⟨d.year, d.month + 1, 1⟩
  else ⟨d.year + 1, 1, 1⟩

/-- `datetime.date(y, m, d)`, or `strptime` with `%Y%m%d`: ValueError unless the date exists. -/
def ofYMD (y m d : ℕ) : Except PyErr Date := if (⟨y, m, d⟩ : Date).Valid then .ok ⟨y, m, d⟩ else .error .valueError

/-- `strptime` with `%Y%j`: the day number of day `j` of year `y`; ValueError unless it exists. -/
def ofYJ (y j : ℕ) : Except PyErr ℕ := if 1 ≤ y ∧ 1 ≤ j ∧ j ≤ yearDays y then .ok (yearStart y + j) else .error .valueError

/-- `strptime` with `%H%M`, or a `datetime`'s time of day: minutes after midnight. -/
def ofHM (h m : ℕ) : Except PyErr ℕ := if h ≤ 23 ∧ m ≤ 59 then .ok (60 * h + m) else .error .valueError

/-- A naive timestamp with resolution of a minute: minutes since the beginning of day 0. -/
scoped notation "Stamp" => ℕ

/-- The timestamp at `minute` minutes after midnight of day `ordinal`. -/
def stamp (ordinal minute : ℕ) : Stamp := 1440 * ordinal + minute

/-- Seconds (since the beginning of day 0, UTC) of a naive local timestamp localized to a fixed offset east of UTC, in seconds. -/
def instant (t : Stamp) (offset : ℤ) : ℤ := 60 * (t : ℤ) - offset

/-! ### Facts -/

theorem yearStart_succ {y : ℕ} (h : 1 ≤ y) : yearStart (y + 1) = yearStart y + yearDays y := by
  obtain ⟨p, rfl⟩ : ∃ p, y = p + 1 := ⟨y - 1, by omega⟩
  have e1 : (p + 1) / 4 = p / 4 + (if (p + 1) % 4 = 0 then 1 else 0) := by split <;> omega
  have e2 : (p + 1) / 100 = p / 100 + (if (p + 1) % 100 = 0 then 1 else 0) := by split <;> omega
  have e3 : (p + 1) / 400 = p / 400 + (if (p + 1) % 400 = 0 then 1 else 0) := by split <;> omega
  unfold yearStart yearDays leap
  simp only [Nat.add_sub_cancel, e1, e2, e3, decide_eq_true_eq]
  split <;> split <;> split <;> split <;> omega

theorem daysBefore_succ {y m : ℕ} (h1 : 1 ≤ m) (h2 : m ≤ 11) : daysBefore y (m + 1) = daysBefore y m + daysInMonth y m := by
  interval_cases m <;> simp only [daysBefore, daysInMonth] <;> (try split) <;> omega

theorem daysBefore_december (y : ℕ) : daysBefore y 12 + daysInMonth y 12 = yearDays y := by
  simp only [daysBefore, daysInMonth, yearDays]; split <;> omega

theorem daysInMonth_pos {y m : ℕ} (h1 : 1 ≤ m) (h2 : m ≤ 12) : 28 ≤ daysInMonth y m := by
  interval_cases m <;> simp only [daysInMonth] <;> (try split) <;> omega

theorem daysBefore_add_le {y m : ℕ} (h1 : 1 ≤ m) (h2 : m ≤ 12) : daysBefore y m + daysInMonth y m ≤ yearDays y := by
  interval_cases m <;> simp only [daysBefore, daysInMonth, yearDays] <;> (try split) <;> omega

theorem doy_le {d : Date} (h : d.Valid) : 1 ≤ d.doy ∧ d.doy ≤ yearDays d.year := by
  obtain ⟨-, h1, h2, h3, h4⟩ := h
  have := daysBefore_add_le (y := d.year) h1 h2
  unfold Date.doy
  omega

theorem next_valid {d : Date} (h : d.Valid) : d.next.Valid := by
  obtain ⟨h0, h1, h2, h3, h4⟩ := h
  unfold Date.next Date.Valid
  split
  · dsimp only; omega
  · split
    · have := daysInMonth_pos (y := d.year) (m := d.month + 1) (by omega) (by omega)
      dsimp only; omega
    · have := daysInMonth_pos (y := d.year + 1) (m := 1) (by omega) (by omega)
      dsimp only; omega

theorem next_ordinal {d : Date} (h : d.Valid) : d.next.ordinal = d.ordinal + 1 := by
  obtain ⟨h0, h1, h2, h3, h4⟩ := h
  unfold Date.next Date.ordinal Date.doy
  split
  · dsimp only; omega
  · split
    · rename_i h5 h6
      have := daysBefore_succ (y := d.year) h1 (by omega)
      dsimp only; omega
    · rename_i h5 h6
      have hm : d.month = 12 := by omega
      have e := daysBefore_december d.year
      have s := yearStart_succ h0
      have z : daysBefore (d.year + 1) 1 = 0 := rfl
      rw [hm] at h5 h4
      dsimp only
      rw [hm, s, z]; omega

theorem yearStart_mono {a b : ℕ} (ha : 1 ≤ a) (h : a < b) : yearStart a + yearDays a ≤ yearStart b := by
  induction b with
  | zero => omega
  | succ b ih =>
    rw [yearStart_succ (by omega)]
    by_cases hab : a = b
    · rw [hab]
    · have := ih (by omega); omega

theorem daysBefore_mono {y a b : ℕ} (ha : 1 ≤ a) (hb : b ≤ 12) (h : a < b) : daysBefore y a + daysInMonth y a ≤ daysBefore y b := by
  induction b with
  | zero => omega
  | succ b ih =>
    rw [daysBefore_succ (by omega) (by omega)]
    by_cases hab : a = b
    · rw [hab]
    · have := ih (by omega) (by omega); omega

/-- Dates are ordered as their day numbers. -/
theorem ordinal_lt {a b : Date} (ha : a.Valid) (hb : b.Valid) :
    a.ordinal < b.ordinal ↔ a.year < b.year ∨ (a.year = b.year ∧ (a.month < b.month ∨ (a.month = b.month ∧ a.day < b.day))) := by
  have key : ∀ {a b : Date}, a.Valid → b.Valid → (a.year < b.year ∨ (a.year = b.year ∧ (a.month < b.month ∨ (a.month = b.month ∧ a.day < b.day)))) →
      a.ordinal < b.ordinal := by
    intro a b ha hb h
    have da := doy_le ha
    have db := doy_le hb
    rcases h with h | ⟨h, h' | ⟨h1, h2⟩⟩
    · have := yearStart_mono ha.1 h
      unfold Date.ordinal; omega
    · have := daysBefore_mono (y := a.year) ha.2.1 hb.2.2.1 h'
      have := ha.2.2.2.2
      have := hb.2.2.2.1
      unfold Date.ordinal Date.doy
      rw [← h]; omega
    · unfold Date.ordinal Date.doy; rw [h, h1]; omega
  refine ⟨fun h => ?_, key ha hb⟩
  by_contra hcon
  have : b.ordinal ≤ a.ordinal := by
    by_cases e : a = b
    · rw [e]
    · refine (key hb ha ?_).le
      have : ¬ (a.year = b.year ∧ a.month = b.month ∧ a.day = b.day) := fun ⟨h1, h2, h3⟩ => e (by cases a; cases b; simp_all)
      omega
  omega

theorem ordinal_inj {a b : Date} (ha : a.Valid) (hb : b.Valid) (h : a.ordinal = b.ordinal) : a = b := by
  by_contra e
  have n : ¬ (a.year = b.year ∧ a.month = b.month ∧ a.day = b.day) := fun ⟨h1, h2, h3⟩ => e (by cases a; cases b; simp_all)
  have h1 := (ordinal_lt ha hb).not.mp (by omega)
  have h2 := (ordinal_lt hb ha).not.mp (by omega)
  omega

/-- The date with a day number: `date.fromordinal(n)`, for `n ≥ 1`. -/
def ofOrdinal (n : ℕ) : Date := Date.next^[n - 1] ⟨1, 1, 1⟩

theorem ofOrdinal_spec {n : ℕ} (h : 1 ≤ n) : (ofOrdinal n).Valid ∧ (ofOrdinal n).ordinal = n := by
  unfold ofOrdinal
  obtain ⟨m, rfl⟩ : ∃ m, n = m + 1 := ⟨n - 1, by omega⟩
  clear h
  simp only [Nat.add_sub_cancel]
  induction m with
  | zero => exact ⟨by decide, by decide⟩
  | succ k ih =>
    rw [Function.iterate_succ_apply']
    exact ⟨next_valid ih.1, by rw [next_ordinal ih.1, ih.2]⟩

theorem ofOrdinal_ordinal {d : Date} (h : d.Valid) : ofOrdinal d.ordinal = d := by
  have h1 := (doy_le h).1
  have h2 : 1 ≤ d.ordinal := by unfold Date.ordinal; omega
  exact ordinal_inj (ofOrdinal_spec h2).1 h (ofOrdinal_spec h2).2

/-- Day `j` of year `y` has day number `yearStart y + j`. -/
theorem ofOrdinal_doy {y j : ℕ} (hy : 1 ≤ y) (h1 : 1 ≤ j) (h2 : j ≤ yearDays y) :
    (ofOrdinal (yearStart y + j)).year = y ∧ (ofOrdinal (yearStart y + j)).doy = j := by
  obtain ⟨hv, ho⟩ := ofOrdinal_spec (n := yearStart y + j) (by omega)
  generalize ofOrdinal (yearStart y + j) = d at hv ho
  obtain ⟨d1, d2⟩ := doy_le hv
  unfold Date.ordinal at ho
  have hd : 1 ≤ d.year := hv.1
  have mono : ∀ {a b : ℕ}, 1 ≤ a → a < b → yearStart a + yearDays a ≤ yearStart b := by
    intro a b ha hab
    obtain ⟨k, rfl⟩ : ∃ k, b = a + 1 + k := ⟨b - a - 1, by omega⟩
    clear hab
    induction k with
    | zero => rw [Nat.add_zero, yearStart_succ ha]
    | succ k ih => rw [← Nat.add_assoc, yearStart_succ (by omega)]; omega
  have : d.year = y := by
    rcases lt_trichotomy d.year y with h | h | h
    · have := mono hd h; omega
    · exact h
    · have := mono hy h; omega
  subst this
  exact ⟨rfl, by omega⟩

end Pvlib.Calendar
