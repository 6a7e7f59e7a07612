import Verif.Props.SolarGeometry
import Verif.Props.SolarLocal

/-! # Property C242: the course of the sun through the day, and the length of the day through the year -/

noncomputable section
open scoped Classical
open Real
namespace Pvlib.Props.DayCourse
open Fl Pvlib.SolarPosition Pvlib.Irradiance Pvlib.Props.SolarGeometry Pvlib.Props.SolarLocal

private theorem cos_pos' {x : ℝ} (h : |x| < π / 2) : 0 < Real.cos x :=
  Real.cos_pos_of_mem_Ioo ⟨(abs_lt.1 h).1, (abs_lt.1 h).2⟩

/-- **C242**: the nearer to noon, the higher the sun: at any latitude and declination the zenith angle grows with the distance of the hour
angle from noon, up to half a turn. -/
theorem nearer_noon {φ δ h h' : ℝ} (h1 : |φ| ≤ π / 2) (h2 : |δ| ≤ π / 2) (hh : |h| ≤ |h'|) (hp : |h'| ≤ π) :
    ∃ z z', solarZenithAnalytical (fin φ) (fin h) (fin δ) = fin z ∧ solarZenithAnalytical (fin φ) (fin h') (fin δ) = fin z' ∧
      z ≤ z' := by
  refine ⟨_, _, zenith_fin φ h δ, zenith_fin φ h' δ, Real.arccos_le_arccos ?_⟩
  rw [sunUp_eq, sunUp_eq]
  have c1 : 0 ≤ Real.cos φ := Real.cos_nonneg_of_mem_Icc ⟨(abs_le.1 h1).1, (abs_le.1 h1).2⟩
  have c2 : 0 ≤ Real.cos δ := Real.cos_nonneg_of_mem_Icc ⟨(abs_le.1 h2).1, (abs_le.1 h2).2⟩
  have c3 : Real.cos h' ≤ Real.cos h := by
    rw [← Real.cos_abs h, ← Real.cos_abs h']
    exact Real.cos_le_cos_of_nonneg_of_le_pi (abs_nonneg _) hp hh
  have := mul_le_mul_of_nonneg_left c3 (mul_nonneg c2 c1)
  linarith

/-- **C242**: strictly so, off the poles. -/
theorem nearer_noon_strict {φ δ h h' : ℝ} (h1 : |φ| < π / 2) (h2 : |δ| < π / 2) (hh : |h| < |h'|) (hp : |h'| ≤ π) :
    ∃ z z', solarZenithAnalytical (fin φ) (fin h) (fin δ) = fin z ∧ solarZenithAnalytical (fin φ) (fin h') (fin δ) = fin z' ∧
      z < z' := by
  refine ⟨_, _, zenith_fin φ h δ, zenith_fin φ h' δ, Real.arccos_lt_arccos (sunUp_mem _ _ _).1 ?_ (sunUp_mem _ _ _).2⟩
  rw [sunUp_eq, sunUp_eq]
  have c3 : Real.cos h' < Real.cos h := by
    rw [← Real.cos_abs h, ← Real.cos_abs h']
    exact Real.cos_lt_cos_of_nonneg_of_le_pi (abs_nonneg _) hp hh
  have := mul_lt_mul_of_pos_left c3 (mul_pos (cos_pos' h2) (cos_pos' h1))
  linarith

/-- Morning and afternoon at 40° North. -/
example := nearer_noon_strict (φ := 0.7) (δ := 0.3) (h := -0.5) (h' := 1)
  (by rw [abs_of_pos (by norm_num)]; linarith [Real.pi_gt_three])
  (by rw [abs_of_pos (by norm_num)]; linarith [Real.pi_gt_three])
  (by norm_num [abs_of_neg]) (by rw [abs_one]; linarith [Real.pi_gt_three])

/-- **C242**: at midnight the zenith angle is half a turn less the size of latitude plus declination. -/
theorem zenith_midnight {φ δ : ℝ} (h : |φ + δ| ≤ π) :
    solarZenithAnalytical (fin φ) (fin π) (fin δ) = fin (π - |φ + δ|) := by
  rw [zenith_fin, sunUp_eq]
  have : Real.cos δ * Real.cos φ * Real.cos π + Real.sin δ * Real.sin φ = -Real.cos |φ + δ| := by
    rw [Real.cos_abs, Real.cos_add, Real.cos_pi]; ring
  rw [this, Real.arccos_neg, Real.arccos_cos (abs_nonneg _) h]

/-- **C242**: the midnight sun: the sun is above the horizon at every hour exactly where latitude plus declination exceeds a right angle in
size. -/
theorem midnight_sun {φ δ : ℝ} (h1 : |φ| ≤ π / 2) (h2 : |δ| ≤ π / 2) :
    (∀ h, ∃ z, solarZenithAnalytical (fin φ) (fin h) (fin δ) = fin z ∧ z < π / 2) ↔ π / 2 < |φ + δ| := by
  have hs : |φ + δ| ≤ π := (abs_add_le _ _).trans (by linarith)
  have hm := zenith_midnight hs
  constructor
  · intro H
    obtain ⟨z, hz, hlt⟩ := H π
    rw [hm, fin_inj] at hz
    linarith
  · intro hl h
    obtain ⟨z, hz, -, -, -, hi⟩ := zenith_angle φ h δ
    refine ⟨z, hz, hi.2 ?_⟩
    obtain ⟨z', hz', -, -, -, hi'⟩ := zenith_angle φ π δ
    rw [hm, fin_inj] at hz'
    have hpos := hi'.1 (by linarith)
    rw [sunUp_eq] at hpos ⊢
    have c1 : 0 ≤ Real.cos φ := Real.cos_nonneg_of_mem_Icc ⟨(abs_le.1 h1).1, (abs_le.1 h1).2⟩
    have c2 : 0 ≤ Real.cos δ := Real.cos_nonneg_of_mem_Icc ⟨(abs_le.1 h2).1, (abs_le.1 h2).2⟩
    have := mul_le_mul_of_nonneg_left (Real.neg_one_le_cos h) (mul_nonneg c2 c1)
    rw [Real.cos_pi] at hpos
    linarith

/-- **C242**: the polar night: the sun is above the horizon at no hour exactly where latitude and declination differ by a right angle or
more. -/
theorem polar_night {φ δ : ℝ} (h1 : |φ| ≤ π / 2) (h2 : |δ| ≤ π / 2) :
    (∀ h, ∃ z, solarZenithAnalytical (fin φ) (fin h) (fin δ) = fin z ∧ π / 2 ≤ z) ↔ π / 2 ≤ |φ - δ| := by
  have hs : |φ - δ| ≤ π := (abs_sub _ _).trans (by linarith)
  have hm := zenith_noon hs
  constructor
  · intro H
    obtain ⟨z, hz, hle⟩ := H 0
    rw [hm, fin_inj] at hz
    linarith
  · intro hl h
    obtain ⟨z, hz, -, -, -, hi⟩ := zenith_angle φ h δ
    refine ⟨z, hz, not_lt.1 fun hlt => ?_⟩
    have hpos := hi.1 hlt
    obtain ⟨z', hz', -, -, -, hi'⟩ := zenith_angle φ 0 δ
    rw [hm, fin_inj] at hz'
    have hno : ¬ 0 < sunUp φ δ 0 := fun hc => absurd (hi'.2 hc) (by linarith)
    apply hno
    rw [sunUp_eq] at hpos ⊢
    have c1 : 0 ≤ Real.cos φ := Real.cos_nonneg_of_mem_Icc ⟨(abs_le.1 h1).1, (abs_le.1 h1).2⟩
    have c2 : 0 ≤ Real.cos δ := Real.cos_nonneg_of_mem_Icc ⟨(abs_le.1 h2).1, (abs_le.1 h2).2⟩
    have := mul_le_mul_of_nonneg_left (Real.cos_le_one h) (mul_nonneg c2 c1)
    rw [Real.cos_zero]
    linarith

/-- At 80° North around midsummer and midwinter. -/
example : π / 2 < |(1.4 : ℝ) + 0.4| := by
  rw [abs_of_pos (by norm_num)]; linarith [Real.pi_lt_d2]
example : π / 2 ≤ |(1.4 : ℝ) - -0.4| := by
  rw [abs_of_pos (by norm_num)]; linarith [Real.pi_lt_d2]

/-! ### Sunrise and sunset -/

/-- The sunset hour angle (degrees) from the tangents of latitude and declination. -/
private theorem sunset_cos {lat δ H : ℝ} (h1 : |lat| < 90) (h2 : |δ| < π / 2) (hH : sunsetAngle (fin lat) (fin δ) = fin H) :
    H = Real.arccos (-(Real.tan δ * Real.tan (lat * (π / 180)))) * (180 / π) ∧
      -1 ≤ Real.tan δ * Real.tan (lat * (π / 180)) ∧ Real.tan δ * Real.tan (lat * (π / 180)) ≤ 1 := by
  have hp := Real.pi_pos
  have hφ1 : |lat * (π / 180)| < π / 2 := by
    rw [abs_mul, abs_of_pos (by positivity : 0 < π / 180)]; nlinarith
  have hcφ := cos_pos' hφ1
  have hcδ := cos_pos' h2
  simp only [sunsetAngle, Fl.radians, fin_mul, Fl.tan, hcφ.ne', hcδ.ne', if_false, neg_fin, Fl.arccos, neg_mul] at hH
  split_ifs at hH with h
  · simp [Fl.degrees] at hH
  · push Not at h
    simp only [Fl.degrees, fin_mul, fin_inj] at hH
    exact ⟨hH.symm, by linarith [h.2], by linarith [h.1]⟩

/-- What a sunrise and sunset that exist say about the sunset hour angle. -/
private theorem from_ok {z : Zone} {u D m r s t : ℝ} {lat δ lon eot : ℝ} (hD : IsLocalDate z u D) (hm : OnlyAt z D m) (hz : z m = z u)
    (h1 : |lat| < 90) (h2 : |δ| < π / 2)
    (e : sunRiseSetTransitGeometric1 z u (fin lat) (fin lon) (fin δ) (fin eot) = .ok (fin r, fin s, fin t)) :
    ∃ H, sunsetAngle (fin lat) (fin δ) = fin H ∧ trueHourAngle r D lon eot = -H ∧ trueHourAngle s D lon eot = H ∧
      trueHourAngle t D lon eot = 0 := by
  by_cases hx : ∃ h, sunUp (lat * (π / 180)) δ h = 0
  · obtain ⟨H, hH⟩ := (sunset_angle h1 h2).1.2 hx
    obtain ⟨r', s', t', e', a1, a2, a3, -⟩ := rise_set_transit hD hm hz lon eot h1 h2 hH
    rw [e] at e'
    injection e' with e'
    injection e' with e1 e'
    injection e' with e2 e3
    rw [fin_inj] at e1 e2 e3
    subst e1 e2 e3
    exact ⟨H, hH, a1, a2, a3⟩
  · push Not at hx
    obtain ⟨t', e', -⟩ := rise_set_polar hD hm hz lon eot h1 h2 hx
    rw [e] at e'
    injection e' with e'
    injection e' with e1 e'
    exact absurd e1 (by simp)

private theorem half_day {r s t D lon eot H : ℝ} (a1 : trueHourAngle r D lon eot = -H) (a2 : trueHourAngle s D lon eot = H)
    (a3 : trueHourAngle t D lon eot = 0) : t - r = 240 * H ∧ s - t = 240 * H := by
  unfold trueHourAngle at a1 a2 a3
  constructor <;> linarith

/-- **C242**: where and when there are sunrise and sunset: latitude and declination add up to at most a right angle in size, and differ by
at most one. -/
theorem exist_iff {z : Zone} {u D m : ℝ} {lat δ : ℝ} (hD : IsLocalDate z u D) (hm : OnlyAt z D m) (hz : z m = z u) (lon eot : ℝ)
    (h1 : |lat| < 90) (h2 : |δ| < π / 2) :
    (∃ r s t, sunRiseSetTransitGeometric1 z u (fin lat) (fin lon) (fin δ) (fin eot) = .ok (fin r, fin s, fin t)) ↔
      |lat * (π / 180) + δ| ≤ π / 2 ∧ |lat * (π / 180) - δ| ≤ π / 2 := by
  have hp := Real.pi_pos
  have hφ1 : |lat * (π / 180)| < π / 2 := by
    rw [abs_mul, abs_of_pos (by positivity : 0 < π / 180)]; nlinarith
  set φ := lat * (π / 180)
  have key : (∃ h, sunUp φ δ h = 0) ↔ |φ + δ| ≤ π / 2 ∧ |φ - δ| ≤ π / 2 := by
    have up0 : sunUp φ δ 0 = Real.cos |φ - δ| := by
      rw [sunUp_eq, Real.cos_abs, Real.cos_sub, Real.cos_zero]; ring
    have upm : sunUp φ δ π = -Real.cos |φ + δ| := by
      rw [sunUp_eq, Real.cos_abs, Real.cos_add, Real.cos_pi]; ring
    have b1 : |φ + δ| ≤ π := (abs_add_le _ _).trans (by linarith)
    have b2 : |φ - δ| ≤ π := (abs_sub _ _).trans (by linarith)
    have hc := mul_pos (cos_pos' h2) (cos_pos' hφ1)
    constructor
    · rintro ⟨h, h0⟩
      rw [sunUp_eq] at h0 up0 upm
      have l1 := mul_le_mul_of_nonneg_left (Real.cos_le_one h) hc.le
      have l2 := mul_le_mul_of_nonneg_left (Real.neg_one_le_cos h) hc.le
      rw [Real.cos_zero] at up0
      rw [Real.cos_pi] at upm
      constructor
      · by_contra hn
        have := Real.cos_neg_of_pi_div_two_lt_of_lt (not_le.1 hn) (by linarith)
        linarith
      · by_contra hn
        have := Real.cos_neg_of_pi_div_two_lt_of_lt (not_le.1 hn) (by linarith)
        linarith
    · rintro ⟨l1, l2⟩
      have n1 : 0 ≤ Real.cos |φ + δ| := Real.cos_nonneg_of_mem_Icc ⟨by linarith [abs_nonneg (φ + δ)], l1⟩
      have n2 : 0 ≤ Real.cos |φ - δ| := Real.cos_nonneg_of_mem_Icc ⟨by linarith [abs_nonneg (φ - δ)], l2⟩
      have hcont : ContinuousOn (fun h => sunUp φ δ h) (Set.Icc 0 π) := by
        have : (fun h => sunUp φ δ h) = fun h => Real.cos δ * Real.cos φ * Real.cos h + Real.sin δ * Real.sin φ :=
          funext fun h => sunUp_eq φ δ h
        rw [this]; fun_prop
      obtain ⟨h, -, h0⟩ := intermediate_value_Icc' hp.le hcont (show (0 : ℝ) ∈ Set.Icc (sunUp φ δ π) (sunUp φ δ 0) by
        rw [up0, upm]; exact ⟨by linarith, n2⟩)
      exact ⟨h, h0⟩
  rw [← key]
  constructor
  · rintro ⟨r, s, t, e⟩
    obtain ⟨H, hH, -⟩ := from_ok hD hm hz h1 h2 e
    exact (sunset_angle h1 h2).1.1 ⟨H, hH⟩
  · intro hx
    obtain ⟨H, hH⟩ := (sunset_angle h1 h2).1.2 hx
    obtain ⟨r, s, t, e, -⟩ := rise_set_transit hD hm hz lon eot h1 h2 hH
    exact ⟨r, s, t, e⟩

/-- Which of two days is longer, wherever and whenever they are. -/
theorem longer {z z' : Zone} {u u' D D' m m' r s t r' s' t' : ℝ} {lat δ lon eot lat' δ' lon' eot' : ℝ}
    (hD : IsLocalDate z u D) (hm : OnlyAt z D m) (hz : z m = z u)
    (hD' : IsLocalDate z' u' D') (hm' : OnlyAt z' D' m') (hz' : z' m' = z' u')
    (h1 : |lat| < 90) (h2 : |δ| < π / 2) (h1' : |lat'| < 90) (h2' : |δ'| < π / 2)
    (e : sunRiseSetTransitGeometric1 z u (fin lat) (fin lon) (fin δ) (fin eot) = .ok (fin r, fin s, fin t))
    (e' : sunRiseSetTransitGeometric1 z' u' (fin lat') (fin lon') (fin δ') (fin eot') = .ok (fin r', fin s', fin t')) :
    s - r < s' - r' ↔ Real.tan δ * Real.tan (lat * (π / 180)) < Real.tan δ' * Real.tan (lat' * (π / 180)) := by
  obtain ⟨H, hH, a1, a2, a3⟩ := from_ok hD hm hz h1 h2 e
  obtain ⟨H', hH', b1, b2, b3⟩ := from_ok hD' hm' hz' h1' h2' e'
  obtain ⟨c1, c2⟩ := half_day a1 a2 a3
  obtain ⟨d1, d2⟩ := half_day b1 b2 b3
  obtain ⟨rfl, l1, l2⟩ := sunset_cos h1 h2 hH
  obtain ⟨rfl, k1, k2⟩ := sunset_cos h1' h2' hH'
  have hp : 0 < 180 / π := by positivity
  have : s - r < s' - r' ↔ Real.arccos (-(Real.tan δ * Real.tan (lat * (π / 180)))) * (180 / π) <
      Real.arccos (-(Real.tan δ' * Real.tan (lat' * (π / 180)))) * (180 / π) := by
    constructor <;> intro h <;> linarith
  rw [this, mul_lt_mul_iff_left₀ hp]
  constructor
  · intro h
    by_contra hn
    exact absurd (Real.arccos_le_arccos (by linarith [not_lt.1 hn] :
      -(Real.tan δ * Real.tan (lat * (π / 180))) ≤ -(Real.tan δ' * Real.tan (lat' * (π / 180))))) (not_le.2 h)
  · intro h
    exact Real.arccos_lt_arccos (by linarith) (by linarith) (by linarith)

theorem rad_lt {lat : ℝ} (h : |lat| < 90) : |lat * (π / 180)| < π / 2 := by
  have hp := Real.pi_pos
  rw [abs_mul, abs_of_pos (by positivity : 0 < π / 180)]; nlinarith

theorem tan_lt {x y : ℝ} (hx : |x| < π / 2) (hy : |y| < π / 2) (h : x < y) : Real.tan x < Real.tan y :=
  Real.strictMonoOn_tan ⟨(abs_lt.1 hx).1, (abs_lt.1 hx).2⟩ ⟨(abs_lt.1 hy).1, (abs_lt.1 hy).2⟩ h

/-- **C242**: with the sun north of the equator, the day is longer the further north, on any day, in any time zone and at any longitude. -/
theorem longer_north {z z' : Zone} {u u' D D' m m' r s t r' s' t' : ℝ} {lat δ lon eot lat' lon' eot' : ℝ}
    (hD : IsLocalDate z u D) (hm : OnlyAt z D m) (hz : z m = z u)
    (hD' : IsLocalDate z' u' D') (hm' : OnlyAt z' D' m') (hz' : z' m' = z' u')
    (h1 : |lat| < 90) (h1' : |lat'| < 90) (h2 : |δ| < π / 2) (hδ : 0 < δ) (hl : lat < lat')
    (e : sunRiseSetTransitGeometric1 z u (fin lat) (fin lon) (fin δ) (fin eot) = .ok (fin r, fin s, fin t))
    (e' : sunRiseSetTransitGeometric1 z' u' (fin lat') (fin lon') (fin δ) (fin eot') = .ok (fin r', fin s', fin t')) :
    s - r < s' - r' := by
  have hp := Real.pi_pos
  refine (longer hD hm hz hD' hm' hz' h1 h2 h1' h2 e e').2 (mul_lt_mul_of_pos_left ?_ ?_)
  · exact tan_lt (rad_lt h1) (rad_lt h1') (by nlinarith [div_pos hp (by norm_num : (0 : ℝ) < 180)])
  · exact Real.tan_pos_of_pos_of_lt_pi_div_two hδ (abs_lt.1 h2).2

/-- **C242**: north of the equator, the day is longer the further north the sun. -/
theorem longer_summer {z z' : Zone} {u u' D D' m m' r s t r' s' t' : ℝ} {lat δ lon eot δ' lon' eot' : ℝ}
    (hD : IsLocalDate z u D) (hm : OnlyAt z D m) (hz : z m = z u)
    (hD' : IsLocalDate z' u' D') (hm' : OnlyAt z' D' m') (hz' : z' m' = z' u')
    (h1 : |lat| < 90) (h2 : |δ| < π / 2) (h2' : |δ'| < π / 2) (hl : 0 < lat) (hδ : δ < δ')
    (e : sunRiseSetTransitGeometric1 z u (fin lat) (fin lon) (fin δ) (fin eot) = .ok (fin r, fin s, fin t))
    (e' : sunRiseSetTransitGeometric1 z' u' (fin lat) (fin lon') (fin δ') (fin eot') = .ok (fin r', fin s', fin t')) :
    s - r < s' - r' := by
  have hp := Real.pi_pos
  refine (longer hD hm hz hD' hm' hz' h1 h2 h1 h2' e e').2 (mul_lt_mul_of_pos_right (tan_lt h2 h2' hδ) ?_)
  exact Real.tan_pos_of_pos_of_lt_pi_div_two (by positivity) (abs_lt.1 (rad_lt h1)).2

/-- **C242**: at one place and on one date, the longer day begins earlier and ends later, about the same noon. -/
theorem earlier_later {z : Zone} {u D m r s t r' s' t' : ℝ} {lat δ lat' δ' lon eot : ℝ}
    (hD : IsLocalDate z u D) (hm : OnlyAt z D m) (hz : z m = z u)
    (h1 : |lat| < 90) (h1' : |lat'| < 90) (h2 : |δ| < π / 2) (h2' : |δ'| < π / 2)
    (e : sunRiseSetTransitGeometric1 z u (fin lat) (fin lon) (fin δ) (fin eot) = .ok (fin r, fin s, fin t))
    (e' : sunRiseSetTransitGeometric1 z u (fin lat') (fin lon) (fin δ') (fin eot) = .ok (fin r', fin s', fin t')) :
    t' = t ∧ (s - r < s' - r' ↔ r' < r) ∧ (s - r < s' - r' ↔ s < s') := by
  obtain ⟨H, hH, a1, a2, a3⟩ := from_ok hD hm hz h1 h2 e
  obtain ⟨H', hH', b1, b2, b3⟩ := from_ok hD hm hz h1' h2' e'
  obtain ⟨c1, c2⟩ := half_day a1 a2 a3
  obtain ⟨d1, d2⟩ := half_day b1 b2 b3
  have ht : t' = t := by unfold trueHourAngle at a3 b3; linarith
  exact ⟨ht, ⟨fun h => by linarith, fun h => by linarith⟩, ⟨fun h => by linarith, fun h => by linarith⟩⟩

/-- **C242**: the day is longer than twelve hours exactly where latitude and declination have the same sign, shorter exactly where they have
opposite signs, and twelve hours exactly on the equator or at the equinox. -/
theorem twelve_hours {z : Zone} {u D m r s t : ℝ} {lat δ lon eot : ℝ} (hD : IsLocalDate z u D) (hm : OnlyAt z D m) (hz : z m = z u)
    (h1 : |lat| < 90) (h2 : |δ| < π / 2)
    (e : sunRiseSetTransitGeometric1 z u (fin lat) (fin lon) (fin δ) (fin eot) = .ok (fin r, fin s, fin t)) :
    (12 * 3600 < s - r ↔ 0 < lat * δ) ∧ (s - r < 12 * 3600 ↔ lat * δ < 0) ∧ (s - r = 12 * 3600 ↔ lat = 0 ∨ δ = 0) := by
  have hp := Real.pi_pos
  obtain ⟨H, hH, a1, a2, a3⟩ := from_ok hD hm hz h1 h2 e
  obtain ⟨c1, c2⟩ := half_day a1 a2 a3
  obtain ⟨hE, l1, l2⟩ := sunset_cos h1 h2 hH
  have hsr : s - r = 480 * H := by linarith
  have sgn : ∀ x, |x| < π / 2 → (0 < Real.tan x ↔ 0 < x) ∧ (Real.tan x < 0 ↔ x < 0) := by
    intro x hx
    have p : 0 < x → 0 < Real.tan x := fun h => Real.tan_pos_of_pos_of_lt_pi_div_two h (abs_lt.1 hx).2
    have n : x < 0 → Real.tan x < 0 := fun h => Real.tan_neg_of_neg_of_pi_div_two_lt h (abs_lt.1 hx).1
    rcases lt_trichotomy x 0 with h | h | h
    · have := n h; constructor <;> constructor <;> intro <;> linarith
    · subst h; simp
    · have := p h; constructor <;> constructor <;> intro <;> linarith
  set φ := lat * (π / 180) with hφ
  have hk : (0 < Real.tan δ * Real.tan φ ↔ 0 < lat * δ) ∧ (Real.tan δ * Real.tan φ < 0 ↔ lat * δ < 0) := by
    have s1 := sgn δ h2
    have s2 := sgn φ (rad_lt h1)
    have q1 : 0 < φ ↔ 0 < lat := by
      rw [hφ]; constructor
      · intro h; by_contra hn; nlinarith [div_pos hp (by norm_num : (0 : ℝ) < 180)]
      · intro h; positivity
    have q2 : φ < 0 ↔ lat < 0 := by
      have hq := div_pos hp (by norm_num : (0 : ℝ) < 180)
      rw [hφ]; constructor
      · intro h; by_contra hn; nlinarith
      · intro h; nlinarith
    constructor
    · rw [mul_comm lat δ, mul_pos_iff, mul_pos_iff, s1.1, s1.2, s2.1, s2.2, q1, q2]
    · rw [mul_comm lat δ, mul_neg_iff, mul_neg_iff, s1.1, s1.2, s2.1, s2.2, q1, q2]
  have z3 : lat * δ = 0 ↔ lat = 0 ∨ δ = 0 := mul_eq_zero
  generalize Real.tan δ * Real.tan φ = k at hE l1 l2 hk
  generalize lat * δ = w at hk z3 ⊢
  have hH90 : ∀ {a b : ℝ}, -1 ≤ a → a < b → b ≤ 1 → Real.arccos b < Real.arccos a := fun h h' h'' => Real.arccos_lt_arccos h h' h''
  clear hD hm hz e hH a1 a2 a3 c1 c2 sgn
  have e90 : (90 : ℝ) = Real.arccos 0 * (180 / π) := by
    rw [Real.arccos_zero]; field_simp; norm_num
  have hq : 0 < 180 / π := by positivity
  have up : 0 < k → 90 < H := fun h => by
    rw [hE, e90]; exact mul_lt_mul_of_pos_right (hH90 (by linarith) (by linarith) (by norm_num)) hq
  have dn : k < 0 → H < 90 := fun h => by
    rw [hE, e90]; exact mul_lt_mul_of_pos_right (hH90 (by norm_num) (by linarith) (by linarith)) hq
  have mid : k = 0 → H = 90 := fun h => by rw [hE, h, neg_zero, ← e90]
  rw [hsr, ← z3, ← hk.1, ← hk.2]
  have kz : w = 0 ↔ k = 0 := by
    rcases lt_trichotomy k 0 with h | h | h
    · have := hk.2.1 h; constructor <;> intro <;> linarith
    · refine ⟨fun _ => h, fun _ => ?_⟩
      rcases lt_trichotomy w 0 with g | g | g
      · have := hk.2.2 g; linarith
      · exact g
      · have := hk.1.2 g; linarith
    · have := hk.1.1 h; constructor <;> intro <;> linarith
  rw [kz]
  rcases lt_trichotomy k 0 with h | h | h
  · have := dn h; refine ⟨⟨?_, ?_⟩, ⟨?_, ?_⟩, ⟨?_, ?_⟩⟩ <;> intro <;> linarith
  · have := mid h; refine ⟨⟨?_, ?_⟩, ⟨?_, ?_⟩, ⟨?_, ?_⟩⟩ <;> intro <;> linarith
  · have := up h; refine ⟨⟨?_, ?_⟩, ⟨?_, ?_⟩, ⟨?_, ?_⟩⟩ <;> intro <;> linarith

/-- Summer at 35° North: sunrise and sunset exist, so the statements above apply. -/
private theorem demo_exists : ∃ r s t, sunRiseSetTransitGeometric1 (fun _ => -25200) 60000 (fin 35) (fin (-106)) (fin 0.3) (fin (-3.5)) =
    .ok (fin r, fin s, fin t) := by
  have h3 := Real.pi_gt_d2
  have h4 := Real.pi_lt_d2
  refine (exist_iff demo_date demo_only rfl (-106) (-3.5) (by norm_num [abs_lt])
    (by rw [abs_of_pos (by norm_num)]; linarith)).2 ⟨?_, ?_⟩
  · rw [abs_le]; constructor <;> linarith
  · rw [abs_le]; constructor <;> linarith

example : ∃ r s, (12 * 3600 : ℝ) < s - r ∧ ∃ t, sunRiseSetTransitGeometric1 (fun _ => -25200) 60000 (fin 35) (fin (-106)) (fin 0.3)
    (fin (-3.5)) = .ok (fin r, fin s, fin t) := by
  obtain ⟨r, s, t, e⟩ := demo_exists
  exact ⟨r, s, (twelve_hours demo_date demo_only rfl (by norm_num [abs_lt])
    (by rw [abs_of_pos (by norm_num)]; linarith [Real.pi_gt_three]) e).1.2 (by norm_num), t, e⟩

end Pvlib.Props.DayCourse
end
