import Verif.Model.SolarPosition
import Mathlib.Analysis.Real.Pi.Bounds

/-! # C108, C109: analytical zenith, azimuth, declination, equation of time -/

noncomputable section
open scoped Classical
open Real
namespace Pvlib.Props.SolarGeometry
open Fl Pvlib.SolarPosition Pvlib.Irradiance

/-! ## Specification: the direction of the sun

Equatorial frame (towards the meridian point of the equator, east, the pole). -/

/-- Unit vector to a sun of declination `δ` and hour angle `h` (positive to the west). -/
def sunEq (δ h : ℝ) : Fin 3 → ℝ := ![Real.cos δ * Real.cos h, -(Real.cos δ * Real.sin h), Real.sin δ]
/-- Local up, north and east at latitude `φ`, in the same frame. -/
def upVec (φ : ℝ) : Fin 3 → ℝ := ![Real.cos φ, 0, Real.sin φ]
def northVec (φ : ℝ) : Fin 3 → ℝ := ![-Real.sin φ, 0, Real.cos φ]
def eastVec : Fin 3 → ℝ := ![0, 1, 0]
/-- Dot product. -/
def dot3 (a b : Fin 3 → ℝ) : ℝ := a 0 * b 0 + a 1 * b 1 + a 2 * b 2

/-- Components of the sun's direction along up, north, east. -/
def sunUp (φ δ h : ℝ) : ℝ := dot3 (sunEq δ h) (upVec φ)
def sunNorth (φ δ h : ℝ) : ℝ := dot3 (sunEq δ h) (northVec φ)
def sunEast (δ h : ℝ) : ℝ := dot3 (sunEq δ h) eastVec

theorem sunUp_eq (φ δ h : ℝ) :
    sunUp φ δ h = Real.cos δ * Real.cos φ * Real.cos h + Real.sin δ * Real.sin φ := by
  simp [sunUp, dot3, sunEq, upVec]; ring
theorem sunNorth_eq (φ δ h : ℝ) :
    sunNorth φ δ h = Real.sin δ * Real.cos φ - Real.cos δ * Real.sin φ * Real.cos h := by
  simp [sunNorth, dot3, sunEq, northVec]; ring
theorem sunEast_eq (δ h : ℝ) : sunEast δ h = -(Real.cos δ * Real.sin h) := by
  simp [sunEast, dot3, sunEq, eastVec]

/-- The direction is a unit vector. -/
theorem sun_unit (φ δ h : ℝ) : sunUp φ δ h ^ 2 + sunNorth φ δ h ^ 2 + sunEast δ h ^ 2 = 1 := by
  rw [sunUp_eq, sunNorth_eq, sunEast_eq]
  have h1 := Real.sin_sq_add_cos_sq δ
  have h2 := Real.sin_sq_add_cos_sq φ
  have h3 := Real.sin_sq_add_cos_sq h
  have e : ∀ sd cd sp cp sh ch : ℝ, (cd * cp * ch + sd * sp) ^ 2 + (sd * cp - cd * sp * ch) ^ 2 + (-(cd * sh)) ^ 2
      = (cd ^ 2 * ch ^ 2 + sd ^ 2) * (sp ^ 2 + cp ^ 2) + cd ^ 2 * sh ^ 2 := by intros; ring
  rw [e, h2]
  have : Real.cos δ ^ 2 * Real.cos h ^ 2 + Real.sin δ ^ 2 + Real.cos δ ^ 2 * Real.sin h ^ 2
    = Real.cos δ ^ 2 * (Real.sin h ^ 2 + Real.cos h ^ 2) + Real.sin δ ^ 2 := by ring
  rw [mul_one, this, h3]; linarith

theorem sunUp_mem (φ δ h : ℝ) : -1 ≤ sunUp φ δ h ∧ sunUp φ δ h ≤ 1 := by
  have := sun_unit φ δ h
  constructor <;> nlinarith [sq_nonneg (sunNorth φ δ h), sq_nonneg (sunEast δ h),
    sq_nonneg (sunUp φ δ h - 1), sq_nonneg (sunUp φ δ h + 1)]

/-! ## Zenith -/

theorem zenith_fin (φ h δ : ℝ) :
    solarZenithAnalytical (fin φ) (fin h) (fin δ) = fin (Real.arccos (sunUp φ δ h)) := by
  have hm := sunUp_mem φ δ h
  have e := sunUp_eq φ δ h
  have : ¬ (sunUp φ δ h < -1 ∨ 1 < sunUp φ δ h) := by
    rintro (h1 | h1) <;> linarith
  simp [solarZenithAnalytical, Fl.cos, Fl.sin, ← e, Fl.arccos, this]

/-- `solar_zenith_analytical` is the angle between the sun's direction and the vertical: for all finite inputs
it is a number in `[0, π]` whose cosine is the upward component (never NaN, whatever the rounding-free
inputs), in particular it is below 90° exactly when the sun is above the horizon. -/
theorem zenith_angle (φ h δ : ℝ) : ∃ z, solarZenithAnalytical (fin φ) (fin h) (fin δ) = fin z ∧
    0 ≤ z ∧ z ≤ π ∧ Real.cos z = sunUp φ δ h ∧ (z < π / 2 ↔ 0 < sunUp φ δ h) := by
  refine ⟨_, zenith_fin φ h δ, Real.arccos_nonneg _, Real.arccos_le_pi _,
    Real.cos_arccos (sunUp_mem φ δ h).1 (sunUp_mem φ δ h).2, ?_⟩
  exact Real.arccos_lt_pi_div_two

/-- Noon: the zenith angle is the distance between latitude and declination. -/
theorem zenith_noon {φ δ : ℝ} (h : |φ - δ| ≤ π) :
    solarZenithAnalytical (fin φ) (fin 0) (fin δ) = fin |φ - δ| := by
  rw [zenith_fin, sunUp_eq]
  have : Real.cos δ * Real.cos φ * Real.cos 0 + Real.sin δ * Real.sin φ = Real.cos |φ - δ| := by
    rw [Real.cos_abs, Real.cos_sub, Real.cos_zero]; ring
  rw [this, Real.arccos_cos (abs_nonneg _) h]

example := zenith_noon (φ := 0.7) (δ := -0.4) (by rw [abs_of_pos (by norm_num)]; linarith [Real.pi_gt_three])

/-- Zenith is the same before and after noon, and 2π-periodic in the hour angle. -/
theorem zenith_symmetric (φ h δ : ℝ) :
    solarZenithAnalytical (fin φ) (fin (-h)) (fin δ) = solarZenithAnalytical (fin φ) (fin h) (fin δ) ∧
    solarZenithAnalytical (fin φ) (fin (h + 2 * π)) (fin δ) = solarZenithAnalytical (fin φ) (fin h) (fin δ) := by
  simp [solarZenithAnalytical, Fl.cos]

/-- NaN in any input gives NaN. -/
theorem zenith_nan (a b : Fl) : solarZenithAnalytical nan a b = nan ∧ solarZenithAnalytical a nan b = nan ∧
    solarZenithAnalytical a b nan = nan := by
  simp [solarZenithAnalytical, Fl.cos, Fl.sin, Fl.arccos]

/-! ## Azimuth -/

/-- The horizontal identity behind the azimuth formula. -/
private theorem horizontal (φ δ h z : ℝ) (hz : Real.cos z = sunUp φ δ h) :
    Real.cos z * Real.sin φ - Real.sin δ = -(sunNorth φ δ h * Real.cos φ) ∧
    Real.sin z ^ 2 = sunNorth φ δ h ^ 2 + sunEast δ h ^ 2 := by
  constructor
  · rw [hz, sunUp_eq, sunNorth_eq]
    have h2 := Real.sin_sq_add_cos_sq φ
    have : Real.sin δ = Real.sin δ * (Real.sin φ ^ 2 + Real.cos φ ^ 2) := by rw [h2]; ring
    linear_combination (norm := ring_nf) -this
  · have := sun_unit φ δ h
    have h1 := Real.sin_sq_add_cos_sq z
    rw [hz] at h1; linarith

/-- The cosine handed to `arccos`, after the three clamps. -/
private def cosAzi (φ δ z : ℝ) : Fl :=
  let c : Fl := (fin (Real.cos z * Real.sin φ - Real.sin δ) : Fl) / fin (Real.sin z * Real.cos φ)
  let c := npwhere (isclose8 (fin (Real.sin z * Real.cos φ)) 0) 1 c
  let c := npwhere (isclose8 c 1) 1 c
  npwhere (isclose8 c (-1)) (-1) c

private theorem azimuth_cosAzi (φ h δ z : ℝ) :
    solarAzimuthAnalytical (fin φ) (fin h) (fin δ) (fin z) =
      Fl.sign (fin h) * Fl.arccos (cosAzi φ δ z) + fin π := by
  simp [solarAzimuthAnalytical, cosAzi, Fl.cos, Fl.sin]

private theorem isclose_fin (x c : ℝ) : isclose8 (fin x) (fin c) ↔ |x - c| ≤ 1e-8 := by
  simp [isclose8]

/-- clamped cosine, away from the poles/zenith: within 1e-8 of the true one and in `[-1, 1]`. -/
private theorem cosAzi_spec (φ δ h z : ℝ) (hz : Real.cos z = sunUp φ δ h) (hs : 0 ≤ Real.sin z)
    (hd : 1e-8 < |Real.sin z * Real.cos φ|) :
    ∃ c, cosAzi φ δ z = fin c ∧ -1 ≤ c ∧ c ≤ 1 ∧ |c + sunNorth φ δ h / Real.sin z| ≤ 1e-8 ∧
      (1e-8 < |sunNorth φ δ h / Real.sin z - 1| → 1e-8 < |sunNorth φ δ h / Real.sin z + 1| →
        c = -(sunNorth φ δ h / Real.sin z)) ∧ 0 < Real.sin z := by
  obtain ⟨e1, e2⟩ := horizontal φ δ h z hz
  have hne : Real.sin z * Real.cos φ ≠ 0 := by
    intro h0; rw [h0] at hd; norm_num at hd
  have hs' : 0 < Real.sin z := lt_of_le_of_ne hs (fun h0 => hne (by rw [← h0]; ring))
  have hc : Real.cos φ ≠ 0 := fun h0 => hne (by rw [h0]; ring)
  set q := sunNorth φ δ h / Real.sin z with hq
  have eq : (Real.cos z * Real.sin φ - Real.sin δ) / (Real.sin z * Real.cos φ) = -q := by
    rw [e1, hq]; field_simp
  have hq1 : q ^ 2 ≤ 1 := by
    rw [hq, div_pow, div_le_one (by positivity), e2]; nlinarith [sq_nonneg (sunEast δ h)]
  have hql : -1 ≤ q ∧ q ≤ 1 := by constructor <;> nlinarith
  have e0 : ¬ isclose8 (fin (Real.sin z * Real.cos φ)) (fin 0) := by
    rw [isclose_fin, sub_zero]; linarith
  unfold cosAzi
  simp only [Fl.fin_div hne, eq, zero_eq, one_eq, neg_fin]
  simp only [npwhere, if_neg e0]
  by_cases h1 : isclose8 (fin (-q)) (fin 1)
  · have h1' := (isclose_fin _ _).1 h1
    have h2 : ¬ isclose8 (fin 1) (fin (-1)) := by rw [isclose_fin]; norm_num
    simp only [if_pos h1, if_neg h2]
    refine ⟨1, rfl, by norm_num, le_refl _, ?_, ?_, hs'⟩
    · rw [show (1 : ℝ) + q = -(-q - 1) by ring, abs_neg]; exact h1'
    · intro _ h4; exfalso
      rw [show -q - 1 = -(q + 1) by ring, abs_neg] at h1'; linarith
  · simp only [if_neg h1]
    by_cases h2 : isclose8 (fin (-q)) (fin (-1))
    · have h2' := (isclose_fin _ _).1 h2
      simp only [if_pos h2]
      refine ⟨-1, rfl, le_refl _, by norm_num, ?_, ?_, hs'⟩
      · rw [show (-1 : ℝ) + q = -(-q - -1) by ring, abs_neg]; exact h2'
      · intro h4 _; exfalso
        rw [show -q - -1 = -(q - 1) by ring, abs_neg] at h2'; linarith
    · simp only [if_neg h2]
      exact ⟨-q, rfl, by linarith, by linarith, by norm_num, fun _ _ => rfl, hs'⟩

private theorem cosAzi_range (φ δ h z : ℝ) (hz : Real.cos z = sunUp φ δ h) (hs : 0 ≤ Real.sin z) :
    ∃ c, cosAzi φ δ z = fin c ∧ -1 ≤ c ∧ c ≤ 1 := by
  by_cases hd : 1e-8 < |Real.sin z * Real.cos φ|
  · obtain ⟨c, h1, h2, h3, _⟩ := cosAzi_spec φ δ h z hz hs hd
    exact ⟨c, h1, h2, h3⟩
  · have e0 : isclose8 (fin (Real.sin z * Real.cos φ)) (fin 0) := by
      rw [isclose_fin, sub_zero]; linarith
    have h1 : isclose8 (fin 1) (fin 1) := by rw [isclose_fin]; norm_num
    have h2 : ¬ isclose8 (fin 1) (fin (-1)) := by rw [isclose_fin]; norm_num
    refine ⟨1, ?_, by norm_num, le_refl _⟩
    unfold cosAzi
    simp only [zero_eq, one_eq, neg_fin]
    simp only [npwhere, if_pos e0, if_pos h1, if_neg h2]

private theorem arccos_fin {c : ℝ} (h1 : -1 ≤ c) (h2 : c ≤ 1) : Fl.arccos (fin c) = fin (Real.arccos c) := by
  have : ¬ (c < -1 ∨ 1 < c) := by rintro (h | h) <;> linarith
  simp [Fl.arccos, this]

/-- The azimuth is a number in `[0, 2π]` for all finite inputs when `zenith` is the one
`solar_zenith_analytical` returns, even with the sun at the zenith or at the poles. -/
theorem azimuth_range (φ h δ : ℝ) :
    ∃ A, solarAzimuthAnalytical (fin φ) (fin h) (fin δ) (solarZenithAnalytical (fin φ) (fin h) (fin δ)) = fin A ∧
      0 ≤ A ∧ A ≤ 2 * π ∧ (h < 0 → A ≤ π) ∧ (0 < h → π ≤ A) := by
  obtain ⟨z, hz, z0, z1, hc, -⟩ := zenith_angle φ h δ
  rw [hz]
  obtain ⟨c, e, c1, c2⟩ := cosAzi_range φ δ h z hc (Real.sin_nonneg_of_nonneg_of_le_pi z0 z1)
  rw [azimuth_cosAzi, e, arccos_fin c1 c2, sign_fin, fin_mul, fin_add]
  have := Real.arccos_nonneg c
  have := Real.arccos_le_pi c
  refine ⟨_, rfl, ?_, ?_, ?_, ?_⟩
  · split_ifs <;> linarith
  · split_ifs <;> linarith
  · intro h1; split_ifs <;> linarith
  · intro h1; split_ifs <;> linarith

/-- Away from the sun at zenith and the poles, with the hour angle between −180° and 180° and not zero, and
the azimuth not within about 0.01° of due north or south, the azimuth returned is *the* azimuth of the sun:
clockwise from north, `sin z · (cos A, sin A)` are the north and east components of the sun's direction. -/
theorem azimuth_exact {φ h δ z : ℝ} (hδ : 0 ≤ Real.cos δ) (h1 : -π < h) (h2 : h < π) (h0 : h ≠ 0)
    (hz : solarZenithAnalytical (fin φ) (fin h) (fin δ) = fin z)
    (hd : 1e-8 < |Real.sin z * Real.cos φ|)
    (hn : 1e-8 < |sunNorth φ δ h / Real.sin z - 1|) (hs : 1e-8 < |sunNorth φ δ h / Real.sin z + 1|) :
    ∃ A, solarAzimuthAnalytical (fin φ) (fin h) (fin δ) (fin z) = fin A ∧
      Real.sin z * Real.cos A = sunNorth φ δ h ∧ Real.sin z * Real.sin A = sunEast δ h := by
  obtain ⟨z', hz', z0, z1, hc, -⟩ := zenith_angle φ h δ
  obtain rfl : z' = z := by rw [hz] at hz'; simpa using hz'.symm
  obtain ⟨c, e, c1, c2, -, hce, hsz⟩ :=
    cosAzi_spec φ δ h z' hc (Real.sin_nonneg_of_nonneg_of_le_pi z0 z1) hd
  have hcc := hce hn hs
  rw [azimuth_cosAzi, e, arccos_fin c1 c2, sign_fin, fin_mul, fin_add]
  have hcos : Real.cos (Real.arccos c) = c := Real.cos_arccos c1 c2
  have hsin : Real.sin (Real.arccos c) = √(1 - c ^ 2) := Real.sin_arccos c
  have hE : Real.sin z' * √(1 - c ^ 2) = |sunEast δ h| := by
    rw [← Real.sqrt_sq_eq_abs, ← Real.sqrt_sq hsz.le, ← Real.sqrt_mul (sq_nonneg _)]
    congr 1
    rw [hcc]
    have := (horizontal φ δ h z' hc).2
    field_simp
    linarith
  have hEa : |sunEast δ h| = Real.cos δ * |Real.sin h| := by
    rw [sunEast_eq, abs_neg, abs_mul, abs_of_nonneg hδ]
  have hmul : Real.sin z' * c = -sunNorth φ δ h := by rw [hcc]; field_simp
  refine ⟨_, rfl, ?_, ?_⟩
  · rcases lt_trichotomy h 0 with hh | hh | hh
    · rw [if_neg (not_lt.2 hh.le), if_pos hh]
      rw [Real.cos_add_pi, neg_one_mul, Real.cos_neg, hcos]; linarith
    · exact absurd hh h0
    · rw [if_pos hh, one_mul, Real.cos_add_pi, hcos]; linarith
  · rcases lt_trichotomy h 0 with hh | hh | hh
    · rw [if_neg (not_lt.2 hh.le), if_pos hh, Real.sin_add_pi, neg_one_mul, Real.sin_neg, hsin, neg_neg, hE, hEa,
        sunEast_eq, abs_of_neg (Real.sin_neg_of_neg_of_neg_pi_lt hh h1)]
      ring
    · exact absurd hh h0
    · rw [if_pos hh, one_mul, Real.sin_add_pi, hsin, mul_neg, hE, hEa, sunEast_eq,
        abs_of_pos (Real.sin_pos_of_pos_of_lt_pi hh h2)]

/-- Without the last two restrictions the cosine of the returned azimuth is within 1e-8 of the true one, and
the azimuth is on the correct (east or west) side. -/
theorem azimuth_approx {φ h δ z : ℝ} (hδ : 0 ≤ Real.cos δ) (h1 : -π < h) (h2 : h < π) (h0 : h ≠ 0)
    (hz : solarZenithAnalytical (fin φ) (fin h) (fin δ) = fin z)
    (hd : 1e-8 < |Real.sin z * Real.cos φ|) :
    ∃ A, solarAzimuthAnalytical (fin φ) (fin h) (fin δ) (fin z) = fin A ∧
      |Real.cos A - sunNorth φ δ h / Real.sin z| ≤ 1e-8 ∧ 0 ≤ Real.sin A * sunEast δ h := by
  obtain ⟨z', hz', z0, z1, hc, -⟩ := zenith_angle φ h δ
  obtain rfl : z' = z := by rw [hz] at hz'; simpa using hz'.symm
  obtain ⟨c, e, c1, c2, hap, -, hsz⟩ :=
    cosAzi_spec φ δ h z' hc (Real.sin_nonneg_of_nonneg_of_le_pi z0 z1) hd
  rw [azimuth_cosAzi, e, arccos_fin c1 c2, sign_fin, fin_mul, fin_add]
  have hcos : Real.cos (Real.arccos c) = c := Real.cos_arccos c1 c2
  have hsin : 0 ≤ Real.sin (Real.arccos c) := by rw [Real.sin_arccos c]; positivity
  refine ⟨_, rfl, ?_, ?_⟩
  · rcases lt_trichotomy h 0 with hh | hh | hh
    · rw [if_neg (not_lt.2 hh.le), if_pos hh, Real.cos_add_pi, neg_one_mul, Real.cos_neg, hcos,
        show -c - sunNorth φ δ h / Real.sin z' = -(c + sunNorth φ δ h / Real.sin z') by ring, abs_neg]
      exact hap
    · exact absurd hh h0
    · rw [if_pos hh, one_mul, Real.cos_add_pi, hcos,
        show -c - sunNorth φ δ h / Real.sin z' = -(c + sunNorth φ δ h / Real.sin z') by ring, abs_neg]
      exact hap
  · rcases lt_trichotomy h 0 with hh | hh | hh
    · rw [if_neg (not_lt.2 hh.le), if_pos hh, Real.sin_add_pi, neg_one_mul, Real.sin_neg, neg_neg, sunEast_eq]
      have := Real.sin_neg_of_neg_of_neg_pi_lt hh h1
      nlinarith [mul_nonneg hsin hδ, mul_nonneg (mul_nonneg hsin hδ) (neg_nonneg.2 this.le)]
    · exact absurd hh h0
    · rw [if_pos hh, one_mul, Real.sin_add_pi, sunEast_eq]
      have := Real.sin_pos_of_pos_of_lt_pi hh h2
      nlinarith [mul_nonneg (mul_nonneg hsin hδ) this.le]

/-- At exactly zero hour angle the function returns due south (`π`) for *every* latitude and declination … -/
theorem azimuth_noon_south (φ δ : ℝ) :
    solarAzimuthAnalytical (fin φ) (fin 0) (fin δ) (solarZenithAnalytical (fin φ) (fin 0) (fin δ)) = fin π := by
  obtain ⟨A, hA, -⟩ := azimuth_range φ 0 δ
  obtain ⟨z, hz, z0, z1, hc, -⟩ := zenith_angle φ 0 δ
  rw [hz]
  obtain ⟨c, e, c1, c2⟩ := cosAzi_range φ δ 0 z hc (Real.sin_nonneg_of_nonneg_of_le_pi z0 z1)
  rw [azimuth_cosAzi, e, arccos_fin c1 c2]
  simp

/-- … which is wrong when the sun culminates to the north (declination above the latitude, as at noon in
the southern hemisphere): its north component is then positive. -/
theorem azimuth_noon_wrong {φ δ : ℝ} (h : φ < δ) (h' : δ < φ + π) : 0 < sunNorth φ δ 0 := by
  rw [sunNorth_eq, Real.cos_zero, mul_one, show Real.sin δ * Real.cos φ - Real.cos δ * Real.sin φ
    = Real.sin (δ - φ) by rw [Real.sin_sub]]
  exact Real.sin_pos_of_pos_of_lt_pi (by linarith) (by linarith)

example := azimuth_noon_wrong (φ := -0.7) (δ := -0.4) (by norm_num) (by linarith [Real.pi_gt_three])

/-- Morning and afternoon are mirror images: `A(-h) = 2π - A(h)`. -/
theorem azimuth_mirror (φ h δ : ℝ) : ∃ A,
    solarAzimuthAnalytical (fin φ) (fin h) (fin δ) (solarZenithAnalytical (fin φ) (fin h) (fin δ)) = fin A ∧
    solarAzimuthAnalytical (fin φ) (fin (-h)) (fin δ) (solarZenithAnalytical (fin φ) (fin (-h)) (fin δ)) =
      fin (2 * π - A) := by
  obtain ⟨z, hz, z0, z1, hc, -⟩ := zenith_angle φ h δ
  rw [(zenith_symmetric φ h δ).1, hz]
  obtain ⟨c, e, c1, c2⟩ := cosAzi_range φ δ h z hc (Real.sin_nonneg_of_nonneg_of_le_pi z0 z1)
  rw [azimuth_cosAzi, azimuth_cosAzi, e, arccos_fin c1 c2, sign_fin, sign_fin, fin_mul, fin_add, fin_mul, fin_add]
  refine ⟨_, rfl, ?_⟩
  congr 1
  rcases lt_trichotomy h 0 with hh | hh | hh
  · rw [if_pos (by linarith), if_neg (by linarith), if_pos hh]; ring
  · subst hh; simp; ring
  · rw [if_neg (by linarith), if_pos (by linarith), if_pos hh]; ring

/-- The hour angle must lie between −180° and 180°: for `0 < h < 2π` the equivalent hour angle `h - 2π` gives the
*mirrored* azimuth, although the zenith is the same. -/
theorem azimuth_unwrapped {φ h δ : ℝ} (h0 : 0 < h) (h1 : h < 2 * π) : ∃ A,
    solarAzimuthAnalytical (fin φ) (fin h) (fin δ) (solarZenithAnalytical (fin φ) (fin h) (fin δ)) = fin A ∧
    solarAzimuthAnalytical (fin φ) (fin (h - 2 * π)) (fin δ)
      (solarZenithAnalytical (fin φ) (fin (h - 2 * π)) (fin δ)) = fin (2 * π - A) := by
  obtain ⟨z, hz, z0, z1, hc, -⟩ := zenith_angle φ h δ
  have hz2 : solarZenithAnalytical (fin φ) (fin (h - 2 * π)) (fin δ) = fin z := by
    rw [← hz, ← (zenith_symmetric φ (h - 2 * π) δ).2]; congr 2; ring
  rw [hz, hz2]
  obtain ⟨c, e, c1, c2⟩ := cosAzi_range φ δ h z hc (Real.sin_nonneg_of_nonneg_of_le_pi z0 z1)
  rw [azimuth_cosAzi, azimuth_cosAzi, e, arccos_fin c1 c2, sign_fin, sign_fin, fin_mul, fin_add, fin_mul, fin_add]
  refine ⟨_, rfl, ?_⟩
  congr 1
  rw [if_pos h0, if_neg (by linarith), if_pos (by linarith)]; ring

example := azimuth_unwrapped (φ := 0.7) (h := 4) (δ := 0.3) (by norm_num) (by linarith [Real.pi_gt_three])

/-- NaN in any input gives NaN. -/
theorem azimuth_nan (a b c : Fl) : solarAzimuthAnalytical a nan b c = nan ∧
    solarAzimuthAnalytical nan a b c = nan ∧ solarAzimuthAnalytical a b c nan = nan ∧
    (∀ z φ : ℝ, 1e-8 < |Real.sin z * Real.cos φ| → solarAzimuthAnalytical (fin φ) b nan (fin z) = nan) := by
  refine ⟨by simp [solarAzimuthAnalytical], by simp [solarAzimuthAnalytical, Fl.cos, Fl.sin, npwhere, isclose8, Fl.arccos],
    by simp [solarAzimuthAnalytical, Fl.cos, Fl.sin, npwhere, isclose8, Fl.arccos], ?_⟩
  intro z φ h
  have : ¬ |Real.sin z * Real.cos φ| ≤ 1e-8 := by linarith
  simp only [zero_eq, solarAzimuthAnalytical, Fl.cos, Fl.sin, npwhere, isclose8, fin_mul, fin_sub, sub_zero, abs_fin,
    ofScientific_eq, fin_le, sub_nan, nan_div, this, if_false]
  simp [Fl.arccos]

/-- Witness for `azimuth_exact`/`azimuth_approx`: on the equator at equinox, three hours after noon
(`h = 45°`), the sun is due west. -/
example : ∃ z, solarZenithAnalytical (fin 0) (fin (π / 4)) (fin 0) = fin z ∧
    1e-8 < |Real.sin z * Real.cos 0| ∧ 1e-8 < |sunNorth 0 0 (π / 4) / Real.sin z - 1| ∧
    1e-8 < |sunNorth 0 0 (π / 4) / Real.sin z + 1| := by
  refine ⟨π / 4, ?_, ?_, ?_, ?_⟩
  · rw [zenith_fin, sunUp_eq]
    simp only [Real.cos_zero, Real.sin_zero, one_mul, zero_mul, add_zero]
    rw [Real.arccos_cos (by positivity) (by linarith [Real.pi_pos])]
  · rw [Real.cos_zero, mul_one, Real.sin_pi_div_four, abs_of_pos (by positivity)]
    nlinarith [Real.sq_sqrt (show (0:ℝ) ≤ 2 by norm_num), Real.sqrt_nonneg 2]
  · rw [sunNorth_eq]; norm_num
  · rw [sunNorth_eq]; norm_num

/-! ## C109: declination and equation of time -/

private theorem dayAngle (d : ℝ) : simpleDayAngle (fin d) = fin (2 * π / 365 * (d - 1)) := by
  simp [simpleDayAngle]

/-- Cooper's declination is `23.45° · sin(360°·(284 + d)/365)`. -/
theorem cooper_formula (d : ℝ) : declinationCooper69 (fin d) =
    fin (23.45 * Real.sin (2 * π * (284 + d) / 365) * (π / 180)) := by
  simp only [declinationCooper69, dayAngle, Fl.radians, ofScientific_eq, fin_mul, fin_add, Fl.sin]
  congr 4; norm_num; ring

/-- It never exceeds 23.45° in size, reaches both bounds, and is zero on day 81 (and again half a year on). -/
theorem cooper_range (d : ℝ) : ∃ δ, declinationCooper69 (fin d) = fin δ ∧ |δ| ≤ 23.45 * (π / 180) := by
  refine ⟨_, cooper_formula d, ?_⟩
  rw [abs_mul, abs_mul, abs_of_pos (show 0 < π / 180 by positivity)]
  have := Real.abs_sin_le_one (2 * π * (284 + d) / 365)
  have hp : 0 < π / 180 := by positivity
  apply mul_le_mul_of_nonneg_right _ hp.le
  rw [abs_of_pos (by norm_num : (0:ℝ) < 23.45)]
  nlinarith

theorem cooper_seasons : declinationCooper69 (fin 81) = fin 0 ∧
    declinationCooper69 (fin 172.25) = fin (23.45 * (π / 180)) ∧
    declinationCooper69 (fin 263.5) = fin 0 ∧
    declinationCooper69 (fin 354.75) = fin (-(23.45 * (π / 180))) := by
  simp only [cooper_formula, fin_inj]
  refine ⟨?_, ?_, ?_, ?_⟩
  · rw [show 2 * π * (284 + 81) / 365 = 2 * π by ring]; simp
  · rw [show 2 * π * (284 + 172.25) / 365 = π / 2 + 2 * π by ring, Real.sin_add_two_pi]; simp
  · rw [show 2 * π * (284 + 263.5) / 365 = π + 2 * π by ring, Real.sin_add_two_pi]; simp
  · rw [show 2 * π * (284 + 354.75) / 365 = (π / 2 + π) + 2 * π by ring, Real.sin_add_two_pi, Real.sin_add_pi]
    simp

private theorem lin_bound (a b x : ℝ) : |a * Real.cos x + b * Real.sin x| ≤ √(a ^ 2 + b ^ 2) := by
  apply Real.abs_le_sqrt
  have := Real.sin_sq_add_cos_sq x
  have e : (a * Real.cos x + b * Real.sin x) ^ 2 + (a * Real.sin x - b * Real.cos x) ^ 2
    = (a ^ 2 + b ^ 2) * (Real.sin x ^ 2 + Real.cos x ^ 2) := by ring
  rw [this, mul_one] at e
  nlinarith [sq_nonneg (a * Real.sin x - b * Real.cos x)]

private theorem lin_bound' (a b x m : ℝ) (hm : 0 ≤ m) (h : a ^ 2 + b ^ 2 ≤ m ^ 2) :
    -m ≤ a * Real.cos x + b * Real.sin x ∧ a * Real.cos x + b * Real.sin x ≤ m := by
  have h1 := lin_bound a b x
  have h2 : √(a ^ 2 + b ^ 2) ≤ m := by rw [← Real.sqrt_sq hm]; exact Real.sqrt_le_sqrt h
  exact abs_le.1 (h1.trans h2)

/-- Spencer's declination stays within ±24.3° (0.4242 rad). -/
theorem spencer_range (d : ℝ) : ∃ δ, declinationSpencer71 (fin d) = fin δ ∧ |δ| ≤ 0.4242 := by
  have e : declinationSpencer71 (fin d) = fin (0.006918 +
      (-0.399912 * Real.cos (2 * π / 365 * (d - 1)) + 0.070257 * Real.sin (2 * π / 365 * (d - 1))) +
      (-0.006758 * Real.cos (2 * (2 * π / 365 * (d - 1))) + 0.000907 * Real.sin (2 * (2 * π / 365 * (d - 1)))) +
      (-0.002697 * Real.cos (3 * (2 * π / 365 * (d - 1))) + 0.00148 * Real.sin (3 * (2 * π / 365 * (d - 1))))) := by
    simp only [declinationSpencer71, dayAngle, ofScientific_eq, ofNat_eq, fin_mul, fin_add, fin_sub, Fl.sin, Fl.cos]
    congr 1; ring
  refine ⟨_, e, ?_⟩
  have h1 := lin_bound' (-0.399912) 0.070257 (2 * π / 365 * (d - 1)) 0.4061 (by norm_num) (by norm_num)
  have h2 := lin_bound' (-0.006758) 0.000907 (2 * (2 * π / 365 * (d - 1))) 0.00683 (by norm_num) (by norm_num)
  have h3 := lin_bound' (-0.002697) 0.00148 (3 * (2 * π / 365 * (d - 1))) 0.00308 (by norm_num) (by norm_num)
  norm_num at h1 h2 h3 ⊢
  rw [abs_le]; constructor <;> linarith [h1.1, h1.2, h2.1, h2.2, h3.1, h3.2]

/-- Spencer's equation of time stays within ±17.4 minutes. -/
theorem eot_spencer_range (d : ℝ) : ∃ m, equationOfTimeSpencer71 (fin d) = fin m ∧ |m| ≤ 17.4 := by
  have e : equationOfTimeSpencer71 (fin d) = fin (1440.0 / 2 / π * (0.0000075 +
      (0.001868 * Real.cos (2 * π / 365 * (d - 1)) + -0.032077 * Real.sin (2 * π / 365 * (d - 1))) +
      (-0.014615 * Real.cos (2 * (2 * π / 365 * (d - 1))) + -0.040849 * Real.sin (2 * (2 * π / 365 * (d - 1)))))) := by
    simp only [equationOfTimeSpencer71, dayAngle, ofScientific_eq, ofNat_eq, fin_mul, fin_add, fin_sub, Fl.sin, Fl.cos]
    congr 1; norm_num; ring
  refine ⟨_, e, ?_⟩
  have h1 := lin_bound' 0.001868 (-0.032077) (2 * π / 365 * (d - 1)) 0.03214 (by norm_num) (by norm_num)
  have h2 := lin_bound' (-0.014615) (-0.040849) (2 * (2 * π / 365 * (d - 1))) 0.0434 (by norm_num) (by norm_num)
  set s := (0.0000075 + (0.001868 * Real.cos (2 * π / 365 * (d - 1)) + -0.032077 * Real.sin (2 * π / 365 * (d - 1))) +
      (-0.014615 * Real.cos (2 * (2 * π / 365 * (d - 1))) + -0.040849 * Real.sin (2 * (2 * π / 365 * (d - 1)))) : ℝ) with hs
  have hs1 : |s| ≤ 0.07555 := by
    rw [abs_le, hs]
    norm_num at h1 h2 ⊢
    constructor <;> linarith [h1.1, h1.2, h2.1, h2.2]
  rw [abs_mul, abs_of_pos (by positivity)]
  have hp : 1440.0 / 2 / π ≤ 229.2 := by
    rw [div_le_iff₀ Real.pi_pos]
    have := Real.pi_gt_d6
    norm_num at this ⊢; linarith
  have h0 : (0:ℝ) ≤ 1440.0 / 2 / π := by positivity
  calc 1440.0 / 2 / π * |s| ≤ 229.2 * 0.07555 := mul_le_mul hp hs1 (abs_nonneg _) (by norm_num)
    _ ≤ 17.4 := by norm_num

/-- PVCDROM's equation of time stays within ±17.6 minutes. -/
theorem eot_pvcdrom_range (d : ℝ) : ∃ m, equationOfTimePvcdrom (fin d) = fin m ∧ |m| ≤ 17.6 ∧
    m = 9.87 * Real.sin (2 * (2 * π / 365 * (d - 81))) - 7.53 * Real.cos (2 * π / 365 * (d - 81)) -
      1.5 * Real.sin (2 * π / 365 * (d - 81)) := by
  have e : equationOfTimePvcdrom (fin d) = fin (9.87 * Real.sin (2 * (2 * π / 365 * (d - 81))) -
      7.53 * Real.cos (2 * π / 365 * (d - 81)) - 1.5 * Real.sin (2 * π / 365 * (d - 81))) := by
    simp only [equationOfTimePvcdrom, dayAngle, ofScientific_eq, fin_mul, fin_sub, Fl.sin, Fl.cos]
    have : 2 * π / 365 * (d - 1) - 2.0 * π / 365.0 * 80.0 = 2 * π / 365 * (d - 81) := by norm_num; ring
    rw [this]
    congr 1; norm_num
  refine ⟨_, e, ?_, rfl⟩
  have h1 := lin_bound' (-7.53) (-1.5) (2 * π / 365 * (d - 81)) 7.68 (by norm_num) (by norm_num)
  have h2 := Real.neg_one_le_sin (2 * (2 * π / 365 * (d - 81)))
  have h3 := Real.sin_le_one (2 * (2 * π / 365 * (d - 81)))
  norm_num at h1 h2 h3 ⊢
  rw [abs_le]; constructor <;> linarith [h1.1, h1.2]

/-- All four repeat every 365 days (so day 366 equals day 1). -/
theorem yearly (d : ℝ) : declinationCooper69 (fin (d + 365)) = declinationCooper69 (fin d) ∧
    declinationSpencer71 (fin (d + 365)) = declinationSpencer71 (fin d) ∧
    equationOfTimeSpencer71 (fin (d + 365)) = equationOfTimeSpencer71 (fin d) ∧
    equationOfTimePvcdrom (fin (d + 365)) = equationOfTimePvcdrom (fin d) := by
  have e1 : 2 * π / 365 * (d + 365 - 1) = 2 * π / 365 * (d - 1) + 2 * π := by ring
  have e2 : 2 * (2 * π / 365 * (d + 365 - 1)) = 2 * (2 * π / 365 * (d - 1)) + 2 * π + 2 * π := by ring
  have e3 : 3 * (2 * π / 365 * (d + 365 - 1)) = 3 * (2 * π / 365 * (d - 1)) + 2 * π + 2 * π + 2 * π := by ring
  refine ⟨?_, ?_, ?_, ?_⟩
  · rw [cooper_formula, cooper_formula, show 2 * π * (284 + (d + 365)) / 365 = 2 * π * (284 + d) / 365 + 2 * π by ring,
      Real.sin_add_two_pi]
  · simp only [declinationSpencer71, dayAngle, ofNat_eq, fin_mul, Fl.sin, Fl.cos, e2, e3]
    simp only [e1, Real.cos_add_two_pi, Real.sin_add_two_pi]
  · have t : (2.0 : ℝ) = 2 := by norm_num
    simp only [equationOfTimeSpencer71, dayAngle, ofScientific_eq, fin_mul, Fl.sin, Fl.cos, t, e2]
    simp only [e1, Real.cos_add_two_pi, Real.sin_add_two_pi]
  · obtain ⟨m, hm, -, e⟩ := eot_pvcdrom_range (d + 365)
    obtain ⟨m', hm', -, e'⟩ := eot_pvcdrom_range d
    rw [hm, hm', e, e', show 2 * (2 * π / 365 * (d + 365 - 81)) = 2 * (2 * π / 365 * (d - 81)) + 2 * π + 2 * π by ring,
      show 2 * π / 365 * (d + 365 - 81) = 2 * π / 365 * (d - 81) + 2 * π by ring]
    simp only [Real.cos_add_two_pi, Real.sin_add_two_pi]

/-- The sun is never overhead outside 24.3° of latitude: with Spencer's declination and |latitude| above that, the noon zenith is positive. -/
theorem noon_zenith_pos {φ d : ℝ} (h : 0.4242 < |φ|) (h' : |φ| ≤ π / 2) : ∃ δ z, declinationSpencer71 (fin d) = fin δ ∧
    solarZenithAnalytical (fin φ) (fin 0) (fin δ) = fin z ∧ 0 < z := by
  obtain ⟨δ, hd, hb⟩ := spencer_range d
  have hp := Real.pi_gt_d2
  refine ⟨δ, |φ - δ|, hd, zenith_noon ?_, ?_⟩
  · have := abs_sub φ δ
    norm_num at hb hp; linarith
  · rw [abs_pos, sub_ne_zero]; rintro rfl; linarith

example := noon_zenith_pos (φ := 0.7) (d := 172) (by rw [abs_of_pos (by norm_num)]; norm_num)
  (by rw [abs_of_pos (by norm_num)]; linarith [Real.pi_gt_three])

end Pvlib.Props.SolarGeometry
end
