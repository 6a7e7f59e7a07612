import Verif.Props.DayCourse

/-! # Property C243: the course of the declination through the year, and the longest day -/

noncomputable section
open scoped Classical
open Real
namespace Pvlib.Props.YearCourse
open Fl Pvlib.SolarPosition Pvlib.Irradiance Pvlib.Props.SolarGeometry Pvlib.Props.SolarLocal Pvlib.Props.DayCourse

/-- The phase of Cooper's sine, from its maximum on day 172.25. -/
private theorem cooper_cos (d : ℝ) : declinationCooper69 (fin d) =
    fin (23.45 * (π / 180) * Real.cos (2 * π / 365 * (d - 172.25))) := by
  rw [cooper_formula, fin_inj, mul_right_comm]
  congr 1
  rw [← Real.cos_sub_pi_div_two, ← Real.cos_add_two_pi (2 * π / 365 * (d - 172.25))]
  congr 1
  ring

private theorem amp : (0 : ℝ) < 23.45 * (π / 180) := by positivity

/-- **C243**: from day -10.25 (the 21st of December of the year before) to day 172.25 (the 21st of June) the declination rises. -/
theorem cooper_rises {d d' : ℝ} (h1 : -10.25 ≤ d) (h : d < d') (h2 : d' ≤ 172.25) :
    ∃ δ δ', declinationCooper69 (fin d) = fin δ ∧ declinationCooper69 (fin d') = fin δ' ∧ δ < δ' := by
  have hp := Real.pi_pos
  refine ⟨_, _, cooper_cos d, cooper_cos d', mul_lt_mul_of_pos_left ?_ amp⟩
  rw [← Real.cos_neg, ← Real.cos_neg (2 * π / 365 * (d' - 172.25))]
  apply Real.cos_lt_cos_of_nonneg_of_le_pi
  · have : 0 ≤ 2 * π / 365 * (172.25 - d') := mul_nonneg (by positivity) (by linarith)
    linarith
  · have : 2 * π / 365 * (172.25 - d) ≤ 2 * π / 365 * 182.5 := mul_le_mul_of_nonneg_left (by linarith) (by positivity)
    linarith
  · have : 2 * π / 365 * (172.25 - d') < 2 * π / 365 * (172.25 - d) := mul_lt_mul_of_pos_left (by linarith) (by positivity)
    linarith

/-- **C243**: from day 172.25 to day 354.75 (the 21st of December) it falls. -/
theorem cooper_falls {d d' : ℝ} (h1 : 172.25 ≤ d) (h : d < d') (h2 : d' ≤ 354.75) :
    ∃ δ δ', declinationCooper69 (fin d) = fin δ ∧ declinationCooper69 (fin d') = fin δ' ∧ δ' < δ := by
  have hp := Real.pi_pos
  refine ⟨_, _, cooper_cos d, cooper_cos d', mul_lt_mul_of_pos_left ?_ amp⟩
  apply Real.cos_lt_cos_of_nonneg_of_le_pi
  · exact mul_nonneg (by positivity) (by linarith)
  · have : 2 * π / 365 * (d' - 172.25) ≤ 2 * π / 365 * 182.5 := mul_le_mul_of_nonneg_left (by linarith) (by positivity)
    linarith
  · exact mul_lt_mul_of_pos_left (by linarith) (by positivity)

/-- March 1 against May 1; September 1 against November 1. -/
example := cooper_rises (d := 60) (d' := 121) (by norm_num) (by norm_num) (by norm_num)
example := cooper_falls (d := 244) (d' := 305) (by norm_num) (by norm_num) (by norm_num)

/-- The cosine at the odd multiples of a 1460th of a turn. -/
private theorem cos_odd (m : ℤ) (hm : m % 2 = 1) : Real.cos (π / 730 * m) ≤ Real.cos (π / 730) := by
  have hp := Real.pi_pos
  obtain ⟨k, r, hk, r0, r1⟩ : ∃ k r : ℤ, m = 1460 * k + r ∧ 1 ≤ r ∧ r ≤ 1459 :=
    ⟨m / 1460, m % 1460, by omega, by omega, by omega⟩
  have e : Real.cos (π / 730 * m) = Real.cos (π / 730 * r) := by
    rw [hk, ← Real.cos_add_int_mul_two_pi (π / 730 * r) k]
    congr 1; push_cast; ring
  have r0' : (1 : ℝ) ≤ r := by exact_mod_cast r0
  have r1' : (r : ℝ) ≤ 1459 := by exact_mod_cast r1
  rw [e]
  rcases le_total (r : ℝ) 730 with h | h
  · apply Real.cos_le_cos_of_nonneg_of_le_pi (by positivity)
    · calc π / 730 * r ≤ π / 730 * 730 := mul_le_mul_of_nonneg_left h (by positivity)
        _ = π := by ring
    · calc π / 730 = π / 730 * 1 := by ring
        _ ≤ π / 730 * r := mul_le_mul_of_nonneg_left r0' (by positivity)
  · rw [← Real.cos_two_pi_sub (π / 730 * r), show 2 * π - π / 730 * r = π / 730 * (1460 - r) by ring]
    apply Real.cos_le_cos_of_nonneg_of_le_pi (by positivity)
    · calc π / 730 * (1460 - r) ≤ π / 730 * 730 := mul_le_mul_of_nonneg_left (by linarith) (by positivity)
        _ = π := by ring
    · calc π / 730 = π / 730 * 1 := by ring
        _ ≤ π / 730 * (1460 - r) := mul_le_mul_of_nonneg_left (by linarith) (by positivity)

/-- **C243**: on no whole day of any year is the declination above that of day 172 or below that of day 355. -/
theorem cooper_solstices (n : ℤ) : ∃ δ s w, declinationCooper69 (fin n) = fin δ ∧ declinationCooper69 (fin 172) = fin s ∧
    declinationCooper69 (fin 355) = fin w ∧ δ ≤ s ∧ w ≤ δ ∧ w = -s := by
  refine ⟨_, _, _, cooper_cos n, cooper_cos 172, cooper_cos 355, ?_, ?_, ?_⟩
  · refine mul_le_mul_of_nonneg_left ?_ amp.le
    have h := cos_odd (4 * n - 689) (by omega)
    push_cast at h
    rw [show 2 * π / 365 * ((n : ℝ) - 172.25) = π / 730 * (4 * n - 689) by ring,
      show 2 * π / 365 * ((172 : ℝ) - 172.25) = -(π / 730) by ring, Real.cos_neg]
    exact h
  · refine mul_le_mul_of_nonneg_left ?_ amp.le
    have h := cos_odd (4 * n - 689 + 730) (by omega)
    push_cast at h
    rw [show 2 * π / 365 * ((n : ℝ) - 172.25) = π / 730 * (4 * n - 689 + 730) - π by ring,
      show 2 * π / 365 * ((355 : ℝ) - 172.25) = π / 730 + π by ring, Real.cos_sub_pi, Real.cos_add_pi]
    linarith
  · rw [show 2 * π / 365 * ((355 : ℝ) - 172.25) = π / 730 + π by ring, Real.cos_add_pi,
      show 2 * π / 365 * ((172 : ℝ) - 172.25) = -(π / 730) by ring, Real.cos_neg]
    ring

/-- **C243**: the declination is always less than a right angle. -/
private theorem small {d δ : ℝ} (h : declinationCooper69 (fin d) = fin δ) : |δ| < π / 2 := by
  obtain ⟨δ', h', hb⟩ := cooper_range d
  rw [h, fin_inj] at h'
  subst h'
  have := Real.pi_pos
  exact hb.trans_lt (by linarith)

/-- A day with sunrise `r` and sunset `s` somewhere at latitude `lat`: the zone, date, longitude and equation of time are whatever they are;
the declination is Cooper's for day `d` of the year. -/
def DayAt (lat d r s : ℝ) : Prop := ∃ (z : Zone) (u D m lon eot t : ℝ), IsLocalDate z u D ∧ OnlyAt z D m ∧ z m = z u ∧
  sunRiseSetTransitGeometric1 z u (fin lat) (fin lon) (declinationCooper69 (fin d)) (fin eot) = .ok (fin r, fin s, fin t)

private theorem day_longer {lat d d' r s r' s' δ δ' : ℝ} (h1 : |lat| < 90) (a : DayAt lat d r s) (b : DayAt lat d' r' s')
    (e : declinationCooper69 (fin d) = fin δ) (e' : declinationCooper69 (fin d') = fin δ') :
    s - r < s' - r' ↔ lat * δ < lat * δ' := by
  obtain ⟨z, u, D, m, lon, eot, t, hD, hm, hz, ho⟩ := a
  obtain ⟨z', u', D', m', lon', eot', t', hD', hm', hz', ho'⟩ := b
  rw [e] at ho
  rw [e'] at ho'
  have h2 := small e
  have h2' := small e'
  rw [longer hD hm hz hD' hm' hz' h1 h2 h1 h2' ho ho']
  have hp := Real.pi_pos
  have mono : Real.tan δ < Real.tan δ' ↔ δ < δ' :=
    ⟨fun h => by
      by_contra hn
      rcases (not_lt.1 hn).lt_or_eq with g | g
      · linarith [DayCourse.tan_lt h2' h2 g]
      · subst g; exact lt_irrefl _ h, DayCourse.tan_lt h2 h2'⟩
  rcases lt_trichotomy lat 0 with h | h | h
  · have : Real.tan (lat * (π / 180)) < 0 :=
      Real.tan_neg_of_neg_of_pi_div_two_lt (by nlinarith [div_pos hp (by norm_num : (0 : ℝ) < 180)]) (abs_lt.1 (rad_lt h1)).1
    rw [mul_lt_mul_right_of_neg this, mul_lt_mul_left_of_neg h]
    constructor
    · intro g
      by_contra hn
      rcases (not_lt.1 hn).lt_or_eq with k | k
      · linarith [mono.2 k]
      · subst k; exact lt_irrefl _ g
    · intro g; exact DayCourse.tan_lt h2' h2 g
  · subst h; simp
  · have : 0 < Real.tan (lat * (π / 180)) :=
      Real.tan_pos_of_pos_of_lt_pi_div_two (by positivity) (abs_lt.1 (rad_lt h1)).2
    rw [mul_lt_mul_iff_left₀ this, mul_lt_mul_iff_right₀ h, mono]

/-- **C243**: north of the equator the days lengthen from the 21st of December to the 21st of June; south of it they shorten. -/
theorem days_lengthen {lat d d' r s r' s' : ℝ} (h1 : |lat| < 90) (a : DayAt lat d r s) (b : DayAt lat d' r' s')
    (hd : -10.25 ≤ d) (h : d < d') (hd' : d' ≤ 172.25) :
    (0 < lat → s - r < s' - r') ∧ (lat < 0 → s' - r' < s - r) := by
  obtain ⟨δ, δ', e, e', hl⟩ := cooper_rises hd h hd'
  exact ⟨fun g => (day_longer h1 a b e e').2 (mul_lt_mul_of_pos_left hl g),
    fun g => (day_longer h1 b a e' e).2 (mul_lt_mul_of_neg_left hl g)⟩

/-- **C243**: and from the 21st of June to the 21st of December it is the other way round. -/
theorem days_shorten {lat d d' r s r' s' : ℝ} (h1 : |lat| < 90) (a : DayAt lat d r s) (b : DayAt lat d' r' s')
    (hd : 172.25 ≤ d) (h : d < d') (hd' : d' ≤ 354.75) :
    (0 < lat → s' - r' < s - r) ∧ (lat < 0 → s - r < s' - r') := by
  obtain ⟨δ, δ', e, e', hl⟩ := cooper_falls hd h hd'
  exact ⟨fun g => (day_longer h1 b a e' e).2 (mul_lt_mul_of_pos_left hl g),
    fun g => (day_longer h1 a b e e').2 (mul_lt_mul_of_neg_left hl g)⟩

/-- **C243**: day 172 is the longest day of the year north of the equator, and day 355 the shortest; south of it the other way round. -/
theorem longest_day {lat r s rj sj rd sd : ℝ} (n : ℤ) (h1 : |lat| < 90) (a : DayAt lat n r s) (j : DayAt lat 172 rj sj)
    (c : DayAt lat 355 rd sd) :
    (0 ≤ lat → s - r ≤ sj - rj ∧ sd - rd ≤ s - r) ∧ (lat ≤ 0 → sj - rj ≤ s - r ∧ s - r ≤ sd - rd) := by
  obtain ⟨δ, σ, w, e, es, ew, l1, l2, -⟩ := cooper_solstices n
  refine ⟨fun g => ⟨?_, ?_⟩, fun g => ⟨?_, ?_⟩⟩ <;> refine not_lt.1 fun hn => ?_
  · exact absurd ((day_longer h1 j a es e).1 hn) (not_lt.2 (mul_le_mul_of_nonneg_left l1 g))
  · exact absurd ((day_longer h1 a c e ew).1 hn) (not_lt.2 (mul_le_mul_of_nonneg_left l2 g))
  · exact absurd ((day_longer h1 a j e es).1 hn) (not_lt.2 (mul_le_mul_of_nonpos_left l1 g))
  · exact absurd ((day_longer h1 c a ew e).1 hn) (not_lt.2 (mul_le_mul_of_nonpos_left l2 g))

/-- Wherever latitude and tilt of the earth add up to no more than a right angle there is such a day. -/
theorem day_exists {lat : ℝ} (h1 : |lat| ≤ 66.55) (d : ℝ) : ∃ r s, DayAt lat d r s := by
  have hp := Real.pi_pos
  obtain ⟨δ, e, hb⟩ := cooper_range d
  have hl : |lat * (π / 180)| ≤ 66.55 * (π / 180) := by
    rw [abs_mul, abs_of_pos (by positivity : 0 < π / 180)]
    exact mul_le_mul_of_nonneg_right h1 (by positivity)
  obtain ⟨r, s, t, h⟩ := (exist_iff demo_date demo_only rfl (-106) (-3.5) (h1.trans_lt (by norm_num)) (small e)).2
    ⟨(abs_add_le _ _).trans (by linarith), (abs_sub _ _).trans (by linarith)⟩
  exact ⟨r, s, _, _, _, _, _, _, _, demo_date, demo_only, rfl, by rw [e]; exact h⟩

/-- In Albuquerque, in March and in May. -/
example : ∃ r s r' s', DayAt 35 60 r s ∧ DayAt 35 121 r' s' ∧ s - r < s' - r' := by
  obtain ⟨r, s, a⟩ := day_exists (lat := 35) (by norm_num [abs_le]) 60
  obtain ⟨r', s', b⟩ := day_exists (lat := 35) (by norm_num [abs_le]) 121
  exact ⟨r, s, r', s', a, b, (days_lengthen (by norm_num [abs_lt]) a b (by norm_num) (by norm_num) (by norm_num)).1 (by norm_num)⟩

/-- **C243**: at noon the sun is higher the higher the declination, at every place the sun is never north of: at latitudes from 23.45° on. -/
theorem noon_height {lat d d' δ δ' : ℝ} (h1 : 23.45 ≤ lat) (h2 : lat ≤ 90) (e : declinationCooper69 (fin d) = fin δ)
    (e' : declinationCooper69 (fin d') = fin δ') (h : δ < δ') :
    ∃ z z', solarZenithAnalytical (fin (lat * (π / 180))) (fin 0) (declinationCooper69 (fin d)) = fin z ∧
      solarZenithAnalytical (fin (lat * (π / 180))) (fin 0) (declinationCooper69 (fin d')) = fin z' ∧ z' < z := by
  have hp := Real.pi_pos
  have val : ∀ {d δ : ℝ}, declinationCooper69 (fin d) = fin δ →
      solarZenithAnalytical (fin (lat * (π / 180))) (fin 0) (declinationCooper69 (fin d)) = fin (lat * (π / 180) - δ) := by
    intro d δ e
    obtain ⟨δ₁, e₁, hb⟩ := cooper_range d
    rw [e, fin_inj] at e₁
    subst e₁
    have hl : 23.45 * (π / 180) ≤ lat * (π / 180) := mul_le_mul_of_nonneg_right h1 (by positivity)
    have hu : lat * (π / 180) ≤ 90 * (π / 180) := mul_le_mul_of_nonneg_right h2 (by positivity)
    obtain ⟨b1, b2⟩ := abs_le.1 hb
    have hn : 0 ≤ lat * (π / 180) - δ := by linarith
    have : |lat * (π / 180) - δ| ≤ π := by rw [abs_of_nonneg hn]; linarith
    rw [e, zenith_noon this, abs_of_nonneg hn]
  exact ⟨_, _, val e, val e', by linarith⟩

/-- In Albuquerque, in March and in May. -/
example : ∃ δ δ', declinationCooper69 (fin 60) = fin δ ∧ declinationCooper69 (fin 121) = fin δ' ∧ δ < δ' :=
  cooper_rises (by norm_num) (by norm_num) (by norm_num)

end Pvlib.Props.YearCourse
end
