import Verif.Model.Spa
import Mathlib.Tactic.IntervalCases

/-! # C115: Julian day numbers -/

noncomputable section
open scoped Classical
namespace Pvlib.Props.SpaJulian
open Fl Pvlib.Spa

/-! ### Specification: the civil calendar -/

/-- Leap years of the Gregorian calendar. -/
def leapGregorian (y : ℤ) : Bool := decide (y % 4 = 0 ∧ (y % 100 ≠ 0 ∨ y % 400 = 0))
/-- Leap years of the Julian calendar. -/
def leapJulian (y : ℤ) : Bool := decide (y % 4 = 0)

/-- Length of a month. -/
def monthLen (leap : ℤ → Bool) (y m : ℤ) : ℤ :=
  if m = 2 then (if leap y then 29 else 28)
  else if m = 4 ∨ m = 6 ∨ m = 9 ∨ m = 11 then 30 else 31

/-- A calendar date. -/
structure Date where
  y : ℤ
  m : ℤ
  d : ℤ
  deriving DecidableEq

/-- A date that exists. -/
def Valid (leap : ℤ → Bool) (t : Date) : Prop := 1 ≤ t.m ∧ t.m ≤ 12 ∧ 1 ≤ t.d ∧ t.d ≤ monthLen leap t.y t.m

/-- The day after. -/
def nextDay (leap : ℤ → Bool) (t : Date) : Date :=
  if t.d < monthLen leap t.y t.m then ⟨t.y, t.m, t.d + 1⟩
  else if t.m < 12 then ⟨t.y, t.m + 1, 1⟩ else ⟨t.y + 1, 1, 1⟩

/-- Seconds since midnight. -/
def sinceMidnight (hour minute second microsecond : ℤ) : ℝ :=
  3600 * hour + 60 * minute + second + microsecond / 1000000

/-! ### Integer form of the code -/

theorem pyInt_div (n : ℤ) (d : ℕ) (hd : 0 < d) (hn : 0 ≤ n) : pyInt ((n : ℝ) / d) = n / d := by
  have hd' : (0 : ℝ) < d := by exact_mod_cast hd
  have hn' : (0 : ℝ) ≤ n := by exact_mod_cast hn
  unfold pyInt
  rw [if_pos (by positivity), Int.floor_eq_iff]
  have hdz : (0 : ℤ) < d := by exact_mod_cast hd
  constructor
  · rw [le_div_iff₀ hd']
    have := Int.ediv_mul_le n hdz.ne'
    exact_mod_cast this
  · rw [div_lt_iff₀ hd']
    have := Int.lt_ediv_add_one_mul_self n hdz
    exact_mod_cast this

/-- Year and month counted from March. -/
def yy (t : Date) : ℤ := if t.m ≤ 2 then t.y - 1 else t.y
def mm (t : Date) : ℤ := if t.m ≤ 2 then t.m + 12 else t.m

/-- Day number of the Julian calendar. -/
def rawDay (t : Date) : ℤ := 1461 * (yy t + 4716) / 4 + 306001 * (mm t + 1) / 10000 + t.d
/-- The Gregorian correction. -/
def corr (t : Date) : ℤ := 2 - yy t / 100 + yy t / 100 / 4

theorem jd_form (t : Date) (h mi s us : ℤ) (hy : -4712 ≤ t.y) (hm1 : 1 ≤ t.m) (hm2 : t.m ≤ 12) :
    julianDayDt t.y t.m t.d h mi s us =
      (if (rawDay t : ℝ) + sinceMidnight h mi s us / 86400 - 1524.5 > 2299160 then
        (rawDay t : ℝ) + sinceMidnight h mi s us / 86400 - 1524.5 +
          ((2 - pyInt ((yy t : ℝ) / 100) + pyInt ((pyInt ((yy t : ℝ) / 100) : ℝ) * 0.25) : ℤ) : ℝ)
      else (rawDay t : ℝ) + sinceMidnight h mi s us / 86400 - 1524.5) := by
  have e1 : pyInt (365.25 * ((yy t : ℝ) + 4716)) = 1461 * (yy t + 4716) / 4 := by
    have := pyInt_div (1461 * (yy t + 4716)) 4 (by norm_num) (by unfold yy; split_ifs <;> omega)
    rw [show (4 : ℤ) = ((4 : ℕ) : ℤ) by rfl, ← this]
    congr 1
    push_cast
    ring
  have e2 : pyInt (30.6001 * ((mm t : ℝ) + 1)) = 306001 * (mm t + 1) / 10000 := by
    have := pyInt_div (306001 * (mm t + 1)) 10000 (by norm_num) (by unfold mm; split_ifs <;> omega)
    rw [show (10000 : ℤ) = ((10000 : ℕ) : ℤ) by rfl, ← this]
    congr 1
    push_cast
    ring
  have e3 : ((us : ℝ) / 1e6 + ((s + mi * 60 + h * 3600 : ℤ) : ℝ)) * 1.0 / (3600 * 24) = sinceMidnight h mi s us / 86400 := by
    unfold sinceMidnight
    push_cast
    norm_num
    ring
  unfold julianDayDt
  dsimp only
  rw [show (if t.m ≤ 2 then t.y - 1 else t.y) = yy t from rfl,
    show (if t.m ≤ 2 then t.m + 12 else t.m) = mm t from rfl, e1, e2, e3]
  have e4 : ((1461 * (yy t + 4716) / 4 : ℤ) : ℝ) + ((306001 * (mm t + 1) / 10000 : ℤ) : ℝ) +
      ((t.d : ℝ) + sinceMidnight h mi s us / 86400) - 1524.5 =
      (rawDay t : ℝ) + sinceMidnight h mi s us / 86400 - 1524.5 := by
    unfold rawDay
    push_cast
    ring
  rw [e4]
  norm_num

theorem gregorian_form (t : Date) (h mi s us : ℤ) (hy : 1583 ≤ t.y) (hv : Valid leapGregorian t)
    (hs : 0 ≤ sinceMidnight h mi s us) :
    julianDayDt t.y t.m t.d h mi s us =
      (rawDay t + corr t : ℤ) - 1524.5 + sinceMidnight h mi s us / 86400 := by
  obtain ⟨h1, h2, h3, h4⟩ := hv
  rw [jd_form t h mi s us (by omega) h1 h2]
  have hy' : 1582 ≤ yy t := by unfold yy; split_ifs <;> omega
  have c1 : pyInt ((yy t : ℝ) / 100) = yy t / 100 := by
    have := pyInt_div (yy t) 100 (by norm_num) (by omega)
    push_cast at this
    exact this
  have c2 : pyInt (((yy t / 100 : ℤ) : ℝ) * 0.25) = yy t / 100 / 4 := by
    have := pyInt_div (yy t / 100) 4 (by norm_num) (by omega)
    push_cast at this
    rw [← this]
    congr 1
    ring
  rw [c1, c2]
  have hraw : (2300699 : ℤ) ≤ rawDay t := by
    unfold rawDay
    have : 13 ≤ mm t ∨ 1583 ≤ yy t := by unfold mm yy; split_ifs <;> omega
    have hm3 : 3 ≤ mm t := by unfold mm; split_ifs <;> omega
    rcases this with h | h
    · omega
    · omega
  have hraw' : (2300699 : ℝ) ≤ rawDay t := by exact_mod_cast hraw
  rw [if_pos]
  · unfold corr
    push_cast
    ring
  · have : 0 ≤ sinceMidnight h mi s us / 86400 := by positivity
    norm_num
    linarith

theorem next_valid (leap : ℤ → Bool) (t : Date) (hv : Valid leap t) : Valid leap (nextDay leap t) := by
  obtain ⟨h1, h2, h3, h4⟩ := hv
  unfold nextDay
  split_ifs with a b
  · exact ⟨h1, h2, by dsimp only; omega, by dsimp only; omega⟩
  · refine ⟨by dsimp only; omega, by dsimp only; omega, le_refl _, ?_⟩
    dsimp only
    unfold monthLen
    split_ifs <;> omega
  · refine ⟨le_refl _, by norm_num, le_refl _, ?_⟩
    dsimp only
    unfold monthLen
    split_ifs <;> omega

theorem next_year (leap : ℤ → Bool) (t : Date) : t.y ≤ (nextDay leap t).y := by
  unfold nextDay
  split_ifs <;> simp

theorem leap_term (y : ℤ) : 1461 * (y + 4716) / 4 = 365 * y + 1722519 + y / 4 := by omega

theorem raw_next (t : Date) (hy : 1583 ≤ t.y) (hv : Valid leapGregorian t) :
    rawDay (nextDay leapGregorian t) + corr (nextDay leapGregorian t) = rawDay t + corr t + 1 := by
  obtain ⟨y, m, d⟩ := t
  obtain ⟨h1, h2, h3, h4⟩ := hv
  simp only at h1 h2 h3 h4 hy
  unfold nextDay
  simp only
  by_cases a : d < monthLen leapGregorian y m
  · rw [if_pos a]
    simp only [rawDay, corr, yy, mm]
    omega
  · rw [if_neg a]
    have hd : d = monthLen leapGregorian y m := by omega
    subst hd
    clear a h4 h3
    have p4 : (y - 1) / 4 = y / 4 - if y % 4 = 0 then 1 else 0 := by split_ifs <;> omega
    have p100 : (y - 1) / 100 = y / 100 - if y % 100 = 0 then 1 else 0 := by split_ifs <;> omega
    interval_cases m <;> simp [rawDay, corr, yy, mm, monthLen, leapGregorian, leap_term, p4, p100]
    all_goals first | omega | (split_ifs <;> omega)

theorem raw_next_julian (t : Date) (hy : -4712 ≤ t.y) (hv : Valid leapJulian t) :
    rawDay (nextDay leapJulian t) = rawDay t + 1 := by
  obtain ⟨y, m, d⟩ := t
  obtain ⟨h1, h2, h3, h4⟩ := hv
  simp only at h1 h2 h3 h4 hy
  unfold nextDay
  simp only
  by_cases a : d < monthLen leapJulian y m
  · rw [if_pos a]
    simp only [rawDay, yy, mm]
    omega
  · rw [if_neg a]
    have hd : d = monthLen leapJulian y m := by omega
    subst hd
    clear a h4 h3
    have p4 : (y - 1) / 4 = y / 4 - if y % 4 = 0 then 1 else 0 := by split_ifs <;> omega
    interval_cases m <;> simp [rawDay, yy, mm, monthLen, leapJulian, leap_term, p4]
    all_goals first | omega | (split_ifs <;> omega)

/-! ### C115 -/

/-- **C115.** One day later on the Gregorian calendar is one more in the Julian day, at the same time of day. -/
theorem jd_next_day (t : Date) (hy : 1583 ≤ t.y) (hv : Valid leapGregorian t) (h mi s us : ℤ)
    (hs : 0 ≤ sinceMidnight h mi s us) :
    julianDayDt (nextDay leapGregorian t).y (nextDay leapGregorian t).m (nextDay leapGregorian t).d h mi s us =
      julianDayDt t.y t.m t.d h mi s us + 1 := by
  rw [gregorian_form t h mi s us hy hv hs,
    gregorian_form _ h mi s us (hy.trans (next_year _ t)) (next_valid _ t hv) hs, raw_next t hy hv]
  push_cast
  ring

example := jd_next_day ⟨2000, 2, 29⟩ (by norm_num) (by simp only [Valid]; decide) 12 30 15 250000 (by norm_num [sinceMidnight])

/-- Within a day the Julian day advances by the elapsed seconds over 86400. -/
theorem jd_within_day (t : Date) (hy : 1583 ≤ t.y) (hv : Valid leapGregorian t) (h mi s us h' mi' s' us' : ℤ)
    (hs : 0 ≤ sinceMidnight h mi s us) (hs' : 0 ≤ sinceMidnight h' mi' s' us') :
    julianDayDt t.y t.m t.d h' mi' s' us' - julianDayDt t.y t.m t.d h mi s us =
      (sinceMidnight h' mi' s' us' - sinceMidnight h mi s us) / 86400 := by
  rw [gregorian_form t h mi s us hy hv hs, gregorian_form t h' mi' s' us' hy hv hs']
  ring

example := jd_within_day ⟨2000, 2, 29⟩ (by norm_num) (by simp only [Valid]; decide) 12 30 15 250000 23 0 0 0 (by norm_num [sinceMidnight])
  (by norm_num [sinceMidnight])

/-- The epoch: 2000-01-01 12:00 is 2451545. -/
theorem jd_epoch : julianDayDt 2000 1 1 12 0 0 0 = 2451545 := by
  have := gregorian_form ⟨2000, 1, 1⟩ 12 0 0 0 (by norm_num)
    ⟨le_refl _, by norm_num, le_refl _, by norm_num [monthLen]⟩ (by norm_num [sinceMidnight])
  simp only at this
  rw [this]
  norm_num [rawDay, corr, yy, mm, sinceMidnight]

/-- The date `n` days after another. -/
def daysAfter (leap : ℤ → Bool) (t : Date) : ℕ → Date
  | 0 => t
  | n + 1 => nextDay leap (daysAfter leap t n)

theorem daysAfter_spec (t : Date) (hy : 1583 ≤ t.y) (hv : Valid leapGregorian t) (n : ℕ) :
    1583 ≤ (daysAfter leapGregorian t n).y ∧ Valid leapGregorian (daysAfter leapGregorian t n) ∧
    rawDay (daysAfter leapGregorian t n) + corr (daysAfter leapGregorian t n) = rawDay t + corr t + n := by
  induction n with
  | zero => exact ⟨hy, hv, by simp [daysAfter]⟩
  | succ n ih =>
    obtain ⟨i1, i2, i3⟩ := ih
    refine ⟨i1.trans (next_year _ _), next_valid _ _ i2, ?_⟩
    simp only [daysAfter]
    rw [raw_next _ i1 i2, i3]
    push_cast
    ring

/-- The calendar form and the unix-time form agree at every time from 1970 on: `n` days after 1970-01-01 and
`x` seconds into the day. -/
theorem jd_unix (n : ℕ) (h mi s us : ℤ) (hs : 0 ≤ sinceMidnight h mi s us) :
    julianDay (fin (86400 * n + sinceMidnight h mi s us)) =
      fin (julianDayDt (daysAfter leapGregorian ⟨1970, 1, 1⟩ n).y (daysAfter leapGregorian ⟨1970, 1, 1⟩ n).m
        (daysAfter leapGregorian ⟨1970, 1, 1⟩ n).d h mi s us) := by
  have hv : Valid leapGregorian ⟨1970, 1, 1⟩ := ⟨le_refl _, by norm_num, le_refl _, by norm_num [monthLen]⟩
  obtain ⟨i1, i2, i3⟩ := daysAfter_spec ⟨1970, 1, 1⟩ (by norm_num) hv n
  rw [gregorian_form _ h mi s us i1 i2 hs, i3]
  have e : rawDay ⟨1970, 1, 1⟩ + corr ⟨1970, 1, 1⟩ = 2442112 := by norm_num [rawDay, corr, yy, mm]
  rw [e]
  simp only [julianDay, Fl.ofScientific_eq, Fl.ofNat_eq, Fl.fin_mul, Fl.fin_add]
  rw [Fl.fin_div (by norm_num), Fl.fin_add, Fl.fin_inj]
  push_cast
  norm_num
  ring

example := jd_unix 20000 12 30 15 250000 (by norm_num [sinceMidnight])

/-- Before the calendar reform the function follows the Julian calendar: one more per day up to the end of 1581,
starting from 0 at noon of 1 January 4713 BC. -/
theorem jd_next_day_julian (t : Date) (hy : -4712 ≤ t.y) (hy2 : (nextDay leapJulian t).y ≤ 1581) (hv : Valid leapJulian t)
    (h mi s us : ℤ) (hs : sinceMidnight h mi s us ≤ 86400) :
    julianDayDt (nextDay leapJulian t).y (nextDay leapJulian t).m (nextDay leapJulian t).d h mi s us =
      julianDayDt t.y t.m t.d h mi s us + 1 := by
  have key : ∀ u : Date, -4712 ≤ u.y → u.y ≤ 1581 → Valid leapJulian u →
      julianDayDt u.y u.m u.d h mi s us = (rawDay u : ℝ) + sinceMidnight h mi s us / 86400 - 1524.5 := by
    intro u h1 h2 hu
    obtain ⟨a1, a2, a3, a4⟩ := hu
    rw [jd_form u h mi s us h1 a1 a2, if_neg]
    have hd : u.d ≤ 31 := a4.trans (by unfold monthLen; split_ifs <;> omega)
    have hr : rawDay u ≤ 2300466 := by
      unfold rawDay
      have : mm u ≤ 12 ∧ yy u ≤ 1581 ∨ mm u ≤ 14 ∧ yy u ≤ 1580 := by unfold mm yy; split_ifs <;> omega
      rcases this with h | h <;> omega
    have hr' : (rawDay u : ℝ) ≤ 2300466 := by exact_mod_cast hr
    norm_num
    linarith
  have hy1 := next_year leapJulian t
  rw [key t hy (hy1.trans hy2) hv, key _ (hy.trans hy1) hy2 (next_valid _ t hv), raw_next_julian t hy hv]
  push_cast
  ring

example := jd_next_day_julian ⟨1200, 2, 28⟩ (by norm_num) (by decide) (by simp only [Valid]; decide) 12 30 15 250000 (by norm_num [sinceMidnight])

/-- Start of the Julian period. -/
theorem jd_zero : julianDayDt (-4712) 1 1 12 0 0 0 = 0 := by
  have := jd_form ⟨-4712, 1, 1⟩ 12 0 0 0 (by norm_num) (by norm_num) (by norm_num)
  simp only at this
  rw [this]
  norm_num [rawDay, yy, mm, sinceMidnight]

/-- Finding: the reform switch is half a day early.  On 4 October 1582 (last day of the Julian calendar) the
Julian day falls by almost ten days just after noon. -/
theorem jd_reform_glitch :
    julianDayDt 1582 10 4 12 0 0 0 = 2299160 ∧ julianDayDt 1582 10 4 13 0 0 0 = 2299150 + 1 / 24 := by
  have a := jd_form ⟨1582, 10, 4⟩ 12 0 0 0 (by norm_num) (by norm_num) (by norm_num)
  have b := jd_form ⟨1582, 10, 4⟩ 13 0 0 0 (by norm_num) (by norm_num) (by norm_num)
  have c1 : pyInt ((yy ⟨1582, 10, 4⟩ : ℝ) / 100) = 15 := by
    have := pyInt_div 1582 100 (by norm_num) (by norm_num)
    norm_num [yy] at this ⊢
    exact this
  have c2 : pyInt (((15 : ℤ) : ℝ) * 0.25) = 3 := by
    have := pyInt_div 15 4 (by norm_num) (by norm_num)
    norm_num at this ⊢
    exact this
  simp only [c1, c2] at a b
  rw [a, b]
  constructor <;> norm_num [rawDay, yy, mm, sinceMidnight]

/-- Witness: 29 February 2000 exists and is followed by 1 March. -/
example : Valid leapGregorian ⟨2000, 2, 29⟩ ∧ nextDay leapGregorian ⟨2000, 2, 29⟩ = ⟨2000, 3, 1⟩ := by
  constructor
  · norm_num [Valid, monthLen, leapGregorian]
  · decide

/-- Witness: 28 February 1900 is followed by 1 March (1900 is not a leap year). -/
example : Valid leapGregorian ⟨1900, 2, 28⟩ ∧ nextDay leapGregorian ⟨1900, 2, 28⟩ = ⟨1900, 3, 1⟩ := by
  constructor
  · norm_num [Valid, monthLen, leapGregorian]
  · decide

end Pvlib.Props.SpaJulian
end
