import Verif.Props.TrigValues
import Verif.Props.SpaGeometry

/-! # C116–C119: `spa.solar_position` as a whole -/

noncomputable section
open scoped Classical
open Real
namespace Pvlib.Props.SpaPosition
open Fl Pvlib.Spa Pvlib.Tools Pvlib.Props.SolarGeometry Pvlib.Props.SpaBounds Pvlib.Props.SpaGeometry

/-! ## The direction from the observer to the sun -/

/-- Up, north and east components of a vector given in the frame (meridian point of the equator, west, pole). -/
def upOf (φ : ℝ) (T : Fin 3 → ℝ) : ℝ := T 0 * Real.cos φ + T 2 * Real.sin φ
def northOf (φ : ℝ) (T : Fin 3 → ℝ) : ℝ := T 2 * Real.cos φ - T 0 * Real.sin φ
def eastOf (T : Fin 3 → ℝ) : ℝ := -T 1

/-- Position of an observer at geodetic latitude `φ` and `E` metres above the ellipsoid, in equatorial earth radii:
distance from the axis `x` and from the equatorial plane `y`. -/
def ObserverAt (φ E x y : ℝ) : Prop :=
  ∃ x0 y0 k, x0 ^ 2 + (y0 / 0.99664719) ^ 2 = 1 ∧ 0 < k ∧ x0 = k * Real.cos φ ∧
    y0 / 0.99664719 ^ 2 = k * Real.sin φ ∧ x = x0 + E / 6378140 * Real.cos φ ∧ y = y0 + E / 6378140 * Real.sin φ

/-- There is only one such position. -/
theorem observer_unique {φ E x y x' y' : ℝ} (h : ObserverAt φ E x y) (h' : ObserverAt φ E x' y') :
    x = x' ∧ y = y' := by
  obtain ⟨x0, y0, k, a1, a2, a3, a4, a5, a6⟩ := h
  obtain ⟨x0', y0', k', b1, b2, b3, b4, b5, b6⟩ := h'
  have q0 : (0.99664719 : ℝ) ≠ 0 := by norm_num
  have c1 : k ^ 2 * (Real.cos φ ^ 2 + (0.99664719 * Real.sin φ) ^ 2) = 1 := by
    rw [← a1, a3]
    have : y0 / 0.99664719 = 0.99664719 * (k * Real.sin φ) := by rw [← a4]; field_simp
    rw [this]
    ring
  have c2 : k' ^ 2 * (Real.cos φ ^ 2 + (0.99664719 * Real.sin φ) ^ 2) = 1 := by
    rw [← b1, b3]
    have : y0' / 0.99664719 = 0.99664719 * (k' * Real.sin φ) := by rw [← b4]; field_simp
    rw [this]
    ring
  have hD : Real.cos φ ^ 2 + (0.99664719 * Real.sin φ) ^ 2 ≠ 0 := by
    intro h0
    rw [h0] at c1
    simp at c1
  have hk : k = k' := by
    have : k ^ 2 = k' ^ 2 := mul_right_cancel₀ hD (c1.trans c2.symm)
    rwa [sq_eq_sq₀ a2.le b2.le] at this
  subst hk
  have hy : y0 = y0' := by
    have : y0 / 0.99664719 ^ 2 = y0' / 0.99664719 ^ 2 := a4.trans b4.symm
    field_simp at this
    exact this
  rw [a5, b5, a6, b6, a3, b3, hy]
  exact ⟨rfl, rfl⟩

/-- **C118.** Elevation, zenith and azimuth are those of the direction from the observer (on the ellipsoid, at the
given elevation) to the sun; the earth's radius seen from the sun is 8.794 arc seconds at unit distance. -/
theorem spa_direction (φ lon E : ℝ) (P T ar : Fl) (R v α δ : ℝ) (dpsi eps jme : Fl)
    (hφ : |φ| < 90) (hE : |E| ≤ 1000000) (hR : 0.9 ≤ R) (hδ : |δ| ≤ 30) :
    ∃ e A x y, (spaTopo ⟨fin φ, fin lon, fin E, P, T, ar⟩ ⟨fin R, fin v, fin α, fin δ, dpsi, eps, jme⟩).elevation = fin e ∧
      (spaTopo ⟨fin φ, fin lon, fin E, P, T, ar⟩ ⟨fin R, fin v, fin α, fin δ, dpsi, eps, jme⟩).zenith = fin (90 - e) ∧
      (spaTopo ⟨fin φ, fin lon, fin E, P, T, ar⟩ ⟨fin R, fin v, fin α, fin δ, dpsi, eps, jme⟩).azimuth = fin A ∧
      -90 ≤ e ∧ e ≤ 90 ∧ 0 ≤ A ∧ A < 360 ∧ ObserverAt (rad φ) E x y ∧
      ∃ ρ, 0 < ρ ∧
        ρ * Real.sin (rad e) =
          upOf (rad φ) (topoVec (rad δ) (rad (v + lon - α)) x y (Real.sin (rad (8.794 / (3600 * R))))) ∧
        ρ * (Real.cos (rad e) * Real.cos (rad A)) =
          northOf (rad φ) (topoVec (rad δ) (rad (v + lon - α)) x y (Real.sin (rad (8.794 / (3600 * R))))) ∧
        ρ * (Real.cos (rad e) * Real.sin (rad A)) =
          eastOf (topoVec (rad δ) (rad (v + lon - α)) x y (Real.sin (rad (8.794 / (3600 * R))))) := by
  have hp := Real.pi_pos
  have hp4 := Real.pi_le_four
  obtain ⟨x, y, x0, y0, k, ex, ey, o1, o2, o3, o4, o5, o6⟩ := observer_point φ E (abs_lt.mp hφ).1 (abs_lt.mp hφ).2
  set H := v + lon - α - 360 * ⌊(v + lon - α) / 360⌋ with hH
  have eH : localHourAngle (fin v) (fin lon) (fin α) = fin H := by
    unfold localHourAngle
    simp only [fin_add, fin_sub, ofNat_eq]
    rw [mod_fin (by norm_num)]
  have hHt : Real.cos (rad H) = Real.cos (rad (v + lon - α)) ∧ Real.sin (rad H) = Real.sin (rad (v + lon - α)) := by
    have : rad H = rad (v + lon - α) - (⌊(v + lon - α) / 360⌋ : ℤ) * (2 * π) := by
      rw [hH, rad, rad]
      ring
    rw [this]
    exact ⟨Real.cos_sub_int_mul_two_pi _ _, Real.sin_sub_int_mul_two_pi _ _⟩
  set ξ := 8.794 / (3600 * R) with hξ
  have eξ : equatorialHorizontalParallax (fin R) = fin ξ := by
    unfold equatorialHorizontalParallax
    simp only [ofNat_eq, ofScientific_eq, fin_mul]
    rw [fin_div (by positivity)]
  have hξ0 : 0 ≤ ξ := by rw [hξ]; positivity
  have hξ1 : ξ ≤ 0.003 := by
    rw [hξ, div_le_iff₀ (by positivity)]
    norm_num at hR ⊢
    linarith
  have hs : |Real.sin (rad ξ)| ≤ 0.0001 := by
    refine Real.abs_sin_le_abs.trans ?_
    rw [rad, abs_mul, abs_of_nonneg hξ0, abs_of_pos (by positivity)]
    calc ξ * (π / 180) ≤ 0.003 * (4 / 180) := by gcongr
      _ ≤ 0.0001 := by norm_num
  have hx0 : |x0| ≤ 1 := by
    have : x0 ^ 2 ≤ 1 := by nlinarith [sq_nonneg (y0 / 0.99664719)]
    exact abs_le_one_iff_mul_self_le_one.mpr (by rw [← sq]; exact this)
  have hx : |x| ≤ 2 := by
    rw [o5]
    refine (abs_add_le _ _).trans ?_
    have : |E / 6378140 * Real.cos (rad φ)| ≤ 1 := by
      rw [abs_mul, abs_div, abs_of_pos (show (0 : ℝ) < 6378140 by norm_num)]
      have h1 : |E| / 6378140 ≤ 1 := by rw [div_le_one (by norm_num)]; linarith
      calc |E| / 6378140 * |Real.cos (rad φ)| ≤ 1 * 1 := by
            gcongr
            exact Real.abs_cos_le_one _
        _ = 1 := one_mul 1
    linarith
  have hcδ : 1 / 2 ≤ Real.cos (rad δ) := by
    rw [← Real.cos_pi_div_three, ← Real.cos_abs (rad δ)]
    refine Real.cos_le_cos_of_nonneg_of_le_pi (abs_nonneg _) (by linarith) ?_
    rw [rad, abs_mul, abs_of_pos (show 0 < π / 180 by positivity)]
    calc |δ| * (π / 180) ≤ 30 * (π / 180) := by gcongr
      _ ≤ π / 3 := by linarith
  have hxs : |x * Real.sin (rad ξ)| < Real.cos (rad δ) := by
    rw [abs_mul]
    calc |x| * |Real.sin (rad ξ)| ≤ 2 * 0.0001 := by gcongr
      _ < 1 / 2 := by norm_num
      _ ≤ _ := hcδ
  obtain ⟨dα, δ', H', p1, p2, p3, -, p4, ρ, hρ, t0, t1, t2⟩ := parallax_direction x y ξ H δ hxs
  obtain ⟨e, A, d1, d2, d3, d4, d5, d6, d7, d8, d9⟩ := horizon_direction φ δ' H' p4
  have hTv : topoVec (rad δ) (rad H) x y (Real.sin (rad ξ)) =
      topoVec (rad δ) (rad (v + lon - α)) x y (Real.sin (rad ξ)) := by
    simp only [topoVec, hHt.1, hHt.2]
  rw [hTv] at t0 t1 t2
  have ee : (spaTopo ⟨fin φ, fin lon, fin E, P, T, ar⟩ ⟨fin R, fin v, fin α, fin δ, dpsi, eps, jme⟩).elevation = fin e := by
    unfold spaTopo
    dsimp only
    rw [eH, eξ, ex, ey, p1, p2, p3, d1]
  refine ⟨e, A, x, y, ee, ?_, ?_, d3, d4, d5, d6, ⟨x0, y0, k, o1, o2, o3, o4, o5, o6⟩, ρ, hρ, ?_, ?_, ?_⟩
  · have : (spaTopo ⟨fin φ, fin lon, fin E, P, T, ar⟩ ⟨fin R, fin v, fin α, fin δ, dpsi, eps, jme⟩).zenith =
        topocentricZenith (spaTopo ⟨fin φ, fin lon, fin E, P, T, ar⟩ ⟨fin R, fin v, fin α, fin δ, dpsi, eps, jme⟩).elevation := rfl
    rw [this, ee]
    simp [topocentricZenith]
  · unfold spaTopo
    dsimp only
    rw [eH, eξ, ex, ey, p1, p2, p3, d2]
  · rw [d7, sunUp_eq, upOf, ← t0, ← t2]
    ring
  · rw [d8, sunNorth_eq, northOf, ← t0, ← t2]
    ring
  · rw [d9, sunEast_eq, eastOf, ← t1]
    ring

example (P T ar dpsi eps jme : Fl) := spa_direction 39.74 (-105.18) 1830 P T ar 0.99 120 280 (-9) dpsi eps jme (by norm_num [abs_lt]) (by norm_num [abs_le]) (by norm_num)
  (by norm_num [abs_le])

/-! ## Equation of time -/

/-- **C119a.** The equation of time lies in (-1420, 20] minutes and equals four times the difference between mean
longitude (corrected) and apparent right ascension, up to whole turns. -/
theorem eot_range (M α dψ ε : ℝ) :
    ∃ E, equationOfTime (fin M) (fin α) (fin dψ) (fin ε) = fin E ∧ -1420 < E ∧ E ≤ 20 ∧
      ∃ k : ℤ, E = 4 * (M - 0.0057183 - α + dψ * Real.cos (rad ε)) + 1440 * k := by
  unfold equationOfTime
  simp only [radians_fin, cos_fin, fin_mul, fin_add, fin_sub, ofNat_eq, ofScientific_eq]
  rw [mod_fin (by norm_num)]
  set z := M - 0.0057183 - α + dψ * Real.cos (ε * (π / 180)) with hz
  obtain ⟨h1, h2⟩ := mod360 z
  simp only [fin_mul, fin_sub, fin_add, neg_fin, fin_lt, fin_le]
  set w := z - 360 * ⌊z / 360⌋ with hw
  have hn : ¬ w * 4 < -20 := by linarith
  by_cases hg : 20 < w * 4
  · have ho : ¬ (w * 4 ≤ 20 ∧ -20 ≤ w * 4) := by rintro ⟨h, _⟩; linarith
    refine ⟨w * 4 - 1440, ?_, by linarith, by linarith, -⌊z / 360⌋ - 1, ?_⟩
    · simp [boolFl, hg, hn, ho]
    · rw [hw]
      push_cast
      ring
  · have ho : (w * 4 ≤ 20 ∧ -20 ≤ w * 4) := ⟨by linarith, by linarith⟩
    refine ⟨w * 4, ?_, by linarith, by linarith, -⌊z / 360⌋, ?_⟩
    · simp [boolFl, hg, hn, ho]
    · rw [hw]
      push_cast
      ring

/-! ## Refraction -/

/-- The angle whose cotangent the refraction formula takes. -/
def refrArg (e : ℝ) : ℝ := e + 10.3 / (e + 5.11)

theorem refraction_eval (P T ar e : ℝ) (hT : 273 + T ≠ 0) (he : e ≠ -5.11) (hc : Real.cos (rad (refrArg e)) ≠ 0)
    (hs : Real.tan (rad (refrArg e)) ≠ 0) :
    refractionCorrection (fin P) (fin T) (fin e) (fin ar) =
      fin (if -(0.26667 + ar) ≤ e then P / 1010 * (283 / (273 + T)) * 1.02 / (60 * Real.tan (rad (refrArg e))) else 0) := by
  have h5 : e + 5.11 ≠ 0 := fun h => he (by linarith)
  unfold refractionCorrection
  simp only [ofNat_eq, ofScientific_eq, neg_fin, fin_add, fin_mul, fin_le]
  rw [fin_div (by norm_num), fin_div hT, fin_div h5, fin_add, radians_fin,
    show (e + 10.3 / (e + 5.11)) * (π / 180) = rad (refrArg e) from rfl, tan_fin hc]
  simp only [fin_mul]
  rw [fin_div (mul_ne_zero (by norm_num) hs)]
  have hsw : (-1.0 * (0.26667 + ar) ≤ e) = (-(0.26667 + ar) ≤ e) := by norm_num
  rw [hsw]
  unfold boolFl
  split_ifs
  · rw [one_eq, fin_mul, mul_one, fin_inj]
    norm_num
  · rw [zero_eq, fin_mul, mul_zero]

example := refraction_eval 1013.25 12 0.5667 10 (by norm_num) (by norm_num)
  (Spec.cosDeg_ne_of (by norm_num [refrArg]) (by norm_num [refrArg]))
  (Real.tan_pos_of_pos_of_lt_pi_div_two (by unfold rad refrArg; positivity) (by unfold rad refrArg; nlinarith [Real.pi_pos])).ne'

private theorem refrArg_mono {a b : ℝ} (ha : -1.9 ≤ a) (hab : a ≤ b) : refrArg a ≤ refrArg b := by
  have h1 : 0 < a + 5.11 := by norm_num at *; linarith
  have h2 : 0 < b + 5.11 := by linarith
  have key : refrArg b - refrArg a = (b - a) * (1 - 10.3 / ((a + 5.11) * (b + 5.11))) := by
    unfold refrArg
    field_simp
    ring
  have h3 : 10.3 ≤ (a + 5.11) * (b + 5.11) := by
    have : 3.21 ≤ a + 5.11 := by norm_num at *; linarith
    have : 3.21 ≤ b + 5.11 := by norm_num at *; linarith
    nlinarith
  have h4 : 10.3 / ((a + 5.11) * (b + 5.11)) ≤ 1 := by rw [div_le_one (by positivity)]; exact h3
  have : 0 ≤ (b - a) * (1 - 10.3 / ((a + 5.11) * (b + 5.11))) := mul_nonneg (by linarith) (by linarith)
  linarith

/-- **C119b.** From just below the horizon up to 89.8 degrees the correction raises the sun: it is finite and
positive, and at most 0.63 degrees at the reference density. -/
theorem refraction_pos (P T ar e : ℝ) (hP : 0 < P) (hT : -273 < T) (hsw : -(0.26667 + ar) ≤ e) (h1 : -0.84 ≤ e)
    (h2 : e ≤ 89.8) :
    ∃ d, refractionCorrection (fin P) (fin T) (fin e) (fin ar) = fin d ∧ 0 < d ∧
      d ≤ 0.63 * (P / 1010 * (283 / (273 + T))) := by
  have hp := Real.pi_pos
  have hlo : 1.57 ≤ refrArg e := by
    refine le_trans ?_ (refrArg_mono (by norm_num) h1)
    norm_num [refrArg]
  have hhi : refrArg e < 90 := by
    refine lt_of_le_of_lt (refrArg_mono (by norm_num at *; linarith) h2) ?_
    norm_num [refrArg]
  have hr0 : 0 < rad (refrArg e) := by rw [rad]; positivity
  have hr1 : rad (refrArg e) < π / 2 := by rw [rad]; nlinarith
  have hcpos : 0 < Real.cos (rad (refrArg e)) := Real.cos_pos_of_mem_Ioo ⟨by linarith, hr1⟩
  have htl := Real.lt_tan hr0 hr1
  have htpos : 0 < Real.tan (rad (refrArg e)) := hr0.trans htl
  have hT' : 0 < 273 + T := by linarith
  rw [refraction_eval P T ar e hT'.ne' (by intro h; rw [h] at h1; norm_num at h1) hcpos.ne' htpos.ne', if_pos hsw]
  refine ⟨_, rfl, by positivity, ?_⟩
  have hpi := Real.pi_gt_d2
  have ht : 0.0273 ≤ Real.tan (rad (refrArg e)) := by
    have : (0.0273 : ℝ) ≤ rad (refrArg e) := by
      rw [rad]
      calc (0.0273 : ℝ) ≤ 1.57 * (3.14 / 180) := by norm_num
        _ ≤ refrArg e * (π / 180) := by gcongr
    linarith
  set D := P / 1010 * (283 / (273 + T)) with hD
  have hDp : 0 < D := by rw [hD]; positivity
  rw [div_le_iff₀ (by positivity)]
  have : 1.02 ≤ 0.63 * (60 * Real.tan (rad (refrArg e))) := by norm_num at ht ⊢; linarith
  nlinarith

/-- Below the switch the correction is zero, away from the singular elevations of the formula. -/
theorem refraction_below (P T ar e : ℝ) (hT : 273 + T ≠ 0) (he : e ≠ -5.11) (hs : Real.sin (rad (refrArg e)) ≠ 0)
    (hsw : e < -(0.26667 + ar)) :
    refractionCorrection (fin P) (fin T) (fin e) (fin ar) = fin 0 := by
  by_cases hc : Real.cos (rad (refrArg e)) = 0
  · have h5 : e + 5.11 ≠ 0 := fun h => he (by linarith)
    unfold refractionCorrection
    simp only [ofNat_eq, ofScientific_eq, neg_fin, fin_add, fin_mul, fin_le]
    rw [fin_div (by norm_num), fin_div hT, fin_div h5, fin_add, radians_fin,
      show (e + 10.3 / (e + 5.11)) * (π / 180) = rad (refrArg e) from rfl, tan_fin', if_pos hc]
    have hsw' : ¬ (-1.0 * (0.26667 + ar) ≤ e) := by norm_num at *; linarith
    simp only [boolFl, hsw', if_false, fin_mul, fin_mul_pinf]
    rw [infSign_pos (by norm_num)]
    simp
  · rw [refraction_eval P T ar e hT he hc ?_, if_neg (not_le.mpr hsw)]
    rw [Real.tan_eq_sin_div_cos]
    exact div_ne_zero hs hc

example := refraction_below 1013.25 12 0.5667 (-2) (by norm_num) (by norm_num)
  (Spec.sinDeg_pos_of (x := refrArg (-2)) (by norm_num [refrArg]) (by norm_num [refrArg])).ne' (by norm_num)

/-- Finding: at exactly -5.11 degrees the formula gives NaN although the correction is switched off there. -/
theorem refraction_singular (P T ar : ℝ) (hT : 273 + T ≠ 0) :
    refractionCorrection (fin P) (fin T) (fin (-5.11)) (fin ar) = nan := by
  unfold refractionCorrection
  simp only [ofNat_eq, ofScientific_eq, neg_fin, fin_add, fin_mul, fin_le]
  rw [fin_div (by norm_num), fin_div hT, show (-5.11 : ℝ) + 5.11 = 0 by norm_num, fin_div_zero,
    infSign_pos (by norm_num)]
  have h0 : infSign (π / 180) = pinf := infSign_pos (by positivity)
  simp [Fl.radians, Fl.tan, h0]

example := refraction_singular 1013.25 12 0.5667 (by norm_num)

/-- Finding: at the zenith the correction is negative (of the order of a hundred-thousandth of a degree). -/
theorem refraction_zenith_neg (P T ar : ℝ) (hP : 0 < P) (hT : -273 < T) (har : 0 ≤ ar) :
    ∃ d, refractionCorrection (fin P) (fin T) (fin 90) (fin ar) = fin d ∧ d < 0 := by
  have hp := Real.pi_pos
  have hA : refrArg 90 = 90 + 10.3 / 95.11 := by norm_num [refrArg]
  have ht : Real.tan (rad (refrArg 90)) < 0 := by
    have : rad (refrArg 90) = rad (10.3 / 95.11) + π / 2 := by rw [hA, rad, rad]; ring
    rw [this, Real.tan_eq_sin_div_cos, Real.sin_add_pi_div_two, Real.cos_add_pi_div_two, div_neg, neg_lt_zero]
    have h1 : 0 < rad (10.3 / 95.11) := by rw [rad]; positivity
    have h2 : rad (10.3 / 95.11) < π / 2 := by
      rw [rad]
      nlinarith [show (10.3 : ℝ) / 95.11 < 1 by norm_num]
    exact div_pos (Real.cos_pos_of_mem_Ioo ⟨by linarith, h2⟩) (Real.sin_pos_of_pos_of_lt_pi h1 (by linarith))
  have hc : Real.cos (rad (refrArg 90)) ≠ 0 := by
    intro h
    rw [Real.tan_eq_sin_div_cos, h, div_zero] at ht
    exact lt_irrefl _ ht
  have hT' : 0 < 273 + T := by linarith
  rw [refraction_eval P T ar 90 hT'.ne' (by norm_num) hc ht.ne, if_pos (by linarith)]
  exact ⟨_, rfl, div_neg_of_pos_of_neg (by positivity) (by linarith)⟩

example := refraction_zenith_neg 1013.25 12 0.5667 (by norm_num) (by norm_num) (by norm_num)

/-! ## The geocentric quantities of a time -/

/-- Days from J2000 (2000-01-01 12:00) to a unix time. -/
def daysJ2000 (t : ℝ) : ℝ := t / 86400 + 2440587.5 - 2451545

private theorem geo_times (t dt : ℝ) : julianDay (fin t) = fin (t / 86400 + 2440587.5) ∧
    julianEphemerisCentury (julianEphemerisDay (julianDay (fin t)) (fin dt)) = fin (daysJ2000 (t + dt) / 36525) ∧
    julianEphemerisMillennium (julianEphemerisCentury (julianEphemerisDay (julianDay (fin t)) (fin dt))) =
      fin (daysJ2000 (t + dt) / 365250) ∧
    julianCentury (julianDay (fin t)) = fin (daysJ2000 t / 36525) := by
  have e1 : julianDay (fin t) = fin (t / 86400 + 2440587.5) := by
    unfold julianDay
    simp only [ofNat_eq, ofScientific_eq, fin_mul]
    rw [fin_div (by norm_num), fin_add]
    norm_num
  have e2 : julianEphemerisCentury (julianEphemerisDay (julianDay (fin t)) (fin dt)) = fin (daysJ2000 (t + dt) / 36525) := by
    rw [e1]
    unfold julianEphemerisDay julianEphemerisCentury daysJ2000
    simp only [ofNat_eq, ofScientific_eq, fin_mul]
    rw [fin_div (by norm_num), fin_add, fin_sub, fin_mul, fin_div (by norm_num), fin_inj]
    norm_num
    ring
  refine ⟨e1, e2, ?_, ?_⟩
  · rw [e2]
    unfold julianEphemerisMillennium
    simp only [ofNat_eq, ofScientific_eq, fin_mul]
    rw [fin_div (by norm_num), fin_inj]
    norm_num
    ring
  · rw [e1]
    unfold julianCentury daysJ2000
    simp only [ofNat_eq, ofScientific_eq]
    rw [fin_sub, fin_mul, fin_div (by norm_num), fin_inj]
    norm_num

private theorem args_fin (j : ℝ) : (∃ a, meanElongation (fin j) = fin a) ∧ (∃ a, meanAnomalySun (fin j) = fin a) ∧
    (∃ a, meanAnomalyMoon (fin j) = fin a) ∧ (∃ a, moonArgumentLatitude (fin j) = fin a) ∧
    (∃ a, moonAscendingLongitude (fin j) = fin a) := by
  unfold meanElongation meanAnomalySun meanAnomalyMoon moonArgumentLatitude moonAscendingLongitude
  simp only [ofNat_eq, ofScientific_eq, fin_mul, fin_pow, fin_add, fin_sub]
  rw [fin_div (by norm_num), fin_div (by norm_num), fin_div (by norm_num), fin_div (by norm_num), fin_div (by norm_num)]
  simp only [fin_add, fin_sub]
  exact ⟨⟨_, rfl⟩, ⟨_, rfl⟩, ⟨_, rfl⟩, ⟨_, rfl⟩, ⟨_, rfl⟩⟩

private theorem declination_bound {ε lam β δ : ℝ} (hε1 : 0 ≤ ε) (hε2 : ε < 24.2) (hβ : |β| < 0.0004)
    (hδ1 : -90 ≤ δ) (hδ2 : δ ≤ 90) (h : Real.sin (rad δ) = eclToEq (rad ε) (rad lam) (rad β) 2) : |δ| < 24.3 := by
  have hp := Real.pi_pos
  have hcε : 0 ≤ Real.cos (rad ε) := Real.cos_nonneg_of_mem_Icc ⟨by rw [rad]; norm_num at *; nlinarith, by rw [rad]; norm_num at *; nlinarith⟩
  have hsε : 0 ≤ Real.sin (rad ε) := Real.sin_nonneg_of_nonneg_of_le_pi (by rw [rad]; positivity) (by rw [rad]; norm_num at *; nlinarith)
  have hb := abs_lt.mp hβ
  have hcβ : 0 ≤ Real.cos (rad β) := Real.cos_nonneg_of_mem_Icc ⟨by rw [rad]; norm_num at *; nlinarith, by rw [rad]; norm_num at *; nlinarith⟩
  have hsb : |Real.sin (rad β)| = Real.sin (rad |β|) := by
    rcases le_or_gt 0 β with h0 | h0
    · rw [abs_of_nonneg h0, abs_of_nonneg]
      exact Real.sin_nonneg_of_nonneg_of_le_pi (by rw [rad]; positivity) (by rw [rad]; norm_num at *; nlinarith)
    · rw [abs_of_neg h0, show rad (-β) = -rad β by rw [rad, rad]; ring, Real.sin_neg, abs_of_neg]
      apply Real.sin_neg_of_neg_of_neg_pi_lt
      · rw [rad]; exact mul_neg_of_neg_of_pos h0 (by positivity)
      · rw [rad]; norm_num at *; nlinarith
  have hcb : Real.cos (rad β) = Real.cos (rad |β|) := by
    rw [rad, rad, ← Real.cos_abs (β * (π / 180)), abs_mul, abs_of_pos (show 0 < π / 180 by positivity)]
  have hbound : |Real.sin (rad δ)| ≤ Real.sin (rad (ε + |β|)) := by
    rw [h]
    simp only [eclToEq, Matrix.cons_val]
    have e : rad (ε + |β|) = rad ε + rad |β| := by rw [rad, rad, rad]; ring
    rw [e, Real.sin_add, ← hcb, ← hsb]
    refine (abs_add_le _ _).trans (add_le_add ?_ ?_)
    · rw [abs_mul, abs_mul, abs_of_nonneg hcβ, abs_of_nonneg hsε]
      have := mul_le_of_le_one_right hcβ (Real.abs_sin_le_one (rad lam))
      nlinarith
    · rw [abs_mul, abs_of_nonneg hcε, mul_comm]
  have hlt : Real.sin (rad (ε + |β|)) < Real.sin (rad 24.3) := by
    have : 0 ≤ ε + |β| := by positivity
    refine Real.sin_lt_sin_of_lt_of_le_pi_div_two ?_ ?_ ?_
    · have : 0 ≤ rad (ε + |β|) := by rw [rad]; positivity
      linarith
    · rw [rad]; norm_num; linarith
    · rw [rad, rad]
      refine mul_lt_mul_of_pos_right ?_ (by positivity)
      norm_num at *; linarith
  have h3 := lt_of_le_of_lt hbound hlt
  rw [abs_lt] at h3 ⊢
  have hmem : ∀ z : ℝ, -90 ≤ z → z ≤ 90 → rad z ∈ Set.Icc (-(π / 2)) (π / 2) := by
    intro z h1 h2
    constructor <;> rw [rad] <;> nlinarith
  have hpos : (0:ℝ) < π / 180 := by positivity
  constructor
  · rw [← Real.sin_neg] at h3
    have := (Real.strictMonoOn_sin.lt_iff_lt ?_ (hmem δ hδ1 hδ2)).mp h3.1
    · rw [show -rad 24.3 = rad (-24.3) by rw [rad, rad]; ring] at this
      exact lt_of_mul_lt_mul_right this hpos.le
    · rw [show -rad 24.3 = rad (-24.3) by rw [rad, rad]; ring]
      exact hmem _ (by norm_num) (by norm_num)
  · have := (Real.strictMonoOn_sin.lt_iff_lt (hmem δ hδ1 hδ2) (hmem _ (by norm_num) (by norm_num))).mp h3.2
    exact lt_of_mul_lt_mul_right this hpos.le

/-- **C117.** For every time within 4000 years of J2000 the apparent right ascension and declination are the
equatorial coordinates of the direction opposite to the earth's heliocentric longitude `L` and latitude `B`,
corrected for nutation `dψ` (below 21 arc seconds) and aberration (20.4898 arc seconds over the distance), with true obliquity `ε`;
the declination never exceeds 24.3 degrees; and `v` is the apparent sidereal time. -/
theorem geo_spec (t dt : ℝ) (h : |daysJ2000 (t + dt)| ≤ 4 * 365250) :
    ∃ R v α δ dψ ε L B,
      spaGeo (fin t) (fin dt) = ⟨fin R, fin v, fin α, fin δ, fin dψ, fin ε, fin (daysJ2000 (t + dt) / 365250)⟩ ∧
      heliocentricRadiusVector (fin (daysJ2000 (t + dt) / 365250)) = fin R ∧
      heliocentricLongitude (fin (daysJ2000 (t + dt) / 365250)) = fin L ∧
      heliocentricLatitude (fin (daysJ2000 (t + dt) / 365250)) = fin B ∧
      0.978 < R ∧ R < 1.0222 ∧ |B| < 0.0004 ∧ |dψ| < 21 / 3600 ∧ 22.7 < ε ∧ ε < 24.2 ∧
      0 ≤ α ∧ α < 360 ∧ |δ| < 24.3 ∧
      Real.cos (rad δ) * Real.cos (rad α) =
        eclToEq (rad ε) (rad (L + 180 + dψ - 20.4898 / (3600 * R))) (rad (-B)) 0 ∧
      Real.cos (rad δ) * Real.sin (rad α) =
        eclToEq (rad ε) (rad (L + 180 + dψ - 20.4898 / (3600 * R))) (rad (-B)) 1 ∧
      Real.sin (rad δ) = eclToEq (rad ε) (rad (L + 180 + dψ - 20.4898 / (3600 * R))) (rad (-B)) 2 ∧
      ∃ k : ℤ, v = 280.46061837 + 360.98564736629 * daysJ2000 t + 0.000387933 * (daysJ2000 t / 36525) ^ 2 -
        (daysJ2000 t / 36525) ^ 3 / 38710000 + dψ * Real.cos (rad ε) + 360 * k := by
  have hp := Real.pi_pos
  obtain ⟨t1, t2, t3, t4⟩ := geo_times t dt
  have hj : |daysJ2000 (t + dt) / 365250| ≤ 4 := by
    rw [abs_div, abs_of_pos (show (0 : ℝ) < 365250 by norm_num), div_le_iff₀ (by norm_num)]
    exact h
  have hc : |daysJ2000 (t + dt) / 36525| ≤ 40 := by
    rw [abs_div, abs_of_pos (show (0 : ℝ) < 36525 by norm_num), div_le_iff₀ (by norm_num)]
    linarith
  obtain ⟨R, hR, hR1, hR2⟩ := distance_range _ hj
  obtain ⟨L, hL, -, -⟩ := longitude_range (daysJ2000 (t + dt) / 365250)
  obtain ⟨B, hB, hB1⟩ := latitude_bound _ hj
  obtain ⟨⟨x0, h0⟩, ⟨x1, h1⟩, ⟨x2, h2⟩, ⟨x3, h3⟩, ⟨x4, h4⟩⟩ := args_fin (daysJ2000 (t + dt) / 36525)
  obtain ⟨dψ, dε, hn, hn1, hn2⟩ := nutation_bound (daysJ2000 (t + dt) / 36525) x0 x1 x2 x3 x4 hc
  obtain ⟨e0, he, he1, he2⟩ := obliquity_range _ hj
  set ε := e0 / 3600 + dε with hε
  have eε : trueEclipticObliquity (fin e0) (fin dε) = fin ε := by
    unfold trueEclipticObliquity
    simp only [ofNat_eq, ofScientific_eq, fin_mul]
    rw [fin_div (by norm_num), fin_add, fin_inj, hε]
    norm_num
  have hε1 : 22.7 < ε ∧ ε < 24.2 := by
    have := abs_lt.mp hn2
    rw [hε]
    norm_num at *
    constructor <;> linarith
  set Θ := L + 180 - 360 * ⌊(L + 180) / 360⌋ with hΘ
  have eΘ : geocentricLongitude (fin L) = fin Θ := by
    unfold geocentricLongitude
    simp only [ofNat_eq, ofScientific_eq, fin_add]
    rw [mod_fin (by norm_num), fin_inj, hΘ]
    norm_num
  have eβ : geocentricLatitude (fin B) = fin (-B) := by
    unfold geocentricLatitude
    simp only [ofScientific_eq, neg_fin, fin_mul, fin_inj]
    norm_num
  have hRpos : 0 < R := by norm_num at hR1; linarith
  have eτ : aberrationCorrection (fin R) = fin (-20.4898 / (3600 * R)) := by
    unfold aberrationCorrection
    simp only [ofNat_eq, ofScientific_eq, neg_fin, fin_mul]
    rw [fin_div (by positivity)]
  set lam := Θ + dψ + -20.4898 / (3600 * R) with hlam
  have elam : apparentSunLongitude (fin Θ) (fin dψ) (fin (-20.4898 / (3600 * R))) = fin lam := by
    simp [apparentSunLongitude, hlam]
  have hlamT : rad lam = rad (L + 180 + dψ - 20.4898 / (3600 * R)) - (⌊(L + 180) / 360⌋ : ℤ) * (2 * π) := by
    rw [hlam, hΘ, rad, rad]
    ring
  have hecl : eclToEq (rad ε) (rad lam) (rad (-B)) =
      eclToEq (rad ε) (rad (L + 180 + dψ - 20.4898 / (3600 * R))) (rad (-B)) := by
    simp only [eclToEq]
    rw [hlamT, Real.cos_sub_int_mul_two_pi, Real.sin_sub_int_mul_two_pi]
  have hcβ : 0 < Real.cos (rad (-B)) := by
    have := abs_lt.mp hB1
    apply Real.cos_pos_of_mem_Ioo
    constructor <;> rw [rad] <;> norm_num at * <;> nlinarith
  obtain ⟨α, δ, hα, hδ, a1, a2, d1, d2, c0, c1, c2⟩ := equatorial_coordinates lam ε (-B) hcβ
  have hδb : |δ| < 24.3 := declination_bound (by linarith [hε1.1]) hε1.2 (by rwa [abs_neg]) d1 d2 c2
  set v0 := 280.46061837 + 360.98564736629 * daysJ2000 t + 0.000387933 * (daysJ2000 t / 36525) ^ 2 -
        (daysJ2000 t / 36525) ^ 3 / 38710000 with hv0
  have ev : meanSiderealTime (fin (t / 86400 + 2440587.5)) (fin (daysJ2000 t / 36525)) =
      fin (v0 - 360 * ⌊v0 / 360⌋) := by
    unfold meanSiderealTime
    simp only [ofNat_eq, ofScientific_eq, fin_sub, fin_mul, fin_pow, fin_add]
    rw [fin_div (by norm_num), fin_sub, mod_fin (by norm_num)]
    have : (280.46061837 : ℝ) + 360.98564736629 * (t / 86400 + 2440587.5 - 2451545) +
        0.000387933 * (daysJ2000 t / 36525) ^ 2 - (daysJ2000 t / 36525) ^ 3 / 38710000 = v0 := by
      rw [hv0, daysJ2000]
    rw [this]
    norm_num
  have ev2 : apparentSiderealTime (fin (v0 - 360 * ⌊v0 / 360⌋)) (fin dψ) (fin ε) =
      fin (v0 - 360 * ⌊v0 / 360⌋ + dψ * Real.cos (rad ε)) := by
    simp [apparentSiderealTime]
  rw [hecl] at c0 c1 c2
  refine ⟨R, v0 - 360 * ⌊v0 / 360⌋ + dψ * Real.cos (rad ε), α, δ, dψ, ε, L, B, ?_, hR, hL, hB, hR1, hR2, hB1, hn1, hε1.1, hε1.2, a1, a2, hδb, c0, c1, c2,
    -⌊v0 / 360⌋, ?_⟩
  · unfold spaGeo
    dsimp only
    rw [t3, t2, t4, t1, h0, h1, h2, h3, h4, hn, hR, hL, hB, he]
    dsimp only
    rw [eε, eΘ, eβ, eτ, elam, ev, ev2, hα, hδ]
  · push_cast
    ring

example := geo_spec 1577836800 70 (by norm_num [abs_le, daysJ2000])

/-- **C119.** For every time within 4000 years of J2000, every latitude short of the poles, every longitude and
every elevation up to 1000 km: elevation, zenith, azimuth and equation of time are real numbers in their ranges,
whatever pressure, temperature and refraction are given. -/
theorem spa_total (φ lon E : ℝ) (P T ar : Fl) (t dt : ℝ) (hφ : |φ| < 90) (hE : |E| ≤ 1000000)
    (h : |daysJ2000 (t + dt)| ≤ 4 * 365250) :
    ∃ e A q, (spaFull ⟨fin φ, fin lon, fin E, P, T, ar⟩ (fin t) (fin dt)).elevation = fin e ∧
      (spaFull ⟨fin φ, fin lon, fin E, P, T, ar⟩ (fin t) (fin dt)).zenith = fin (90 - e) ∧
      (spaFull ⟨fin φ, fin lon, fin E, P, T, ar⟩ (fin t) (fin dt)).azimuth = fin A ∧
      (spaFull ⟨fin φ, fin lon, fin E, P, T, ar⟩ (fin t) (fin dt)).eot = fin q ∧
      -90 ≤ e ∧ e ≤ 90 ∧ 0 ≤ A ∧ A < 360 ∧ -1420 < q ∧ q ≤ 20 := by
  obtain ⟨R, v, α, δ, dψ, ε, L, B, hg, -, -, -, hR, -, -, -, -, -, -, -, hδ, -⟩ := geo_spec t dt h
  obtain ⟨e, A, x, y, d1, d2, d3, d4, d5, d6, d7, -⟩ := spa_direction φ lon E P T ar R v α δ (fin dψ) (fin ε)
    (fin (daysJ2000 (t + dt) / 365250)) hφ hE (by norm_num at *; linarith) (by norm_num at *; linarith)
  have hM : ∃ M, sunMeanLongitude (fin (daysJ2000 (t + dt) / 365250)) = fin M := by
    unfold sunMeanLongitude
    simp only [ofNat_eq, ofScientific_eq, fin_mul, fin_pow, fin_add]
    rw [fin_div (by norm_num), fin_div (by norm_num), fin_div (by norm_num)]
    simp only [fin_add, fin_sub]
    exact ⟨_, rfl⟩
  obtain ⟨M, hM⟩ := hM
  obtain ⟨q, hq, q1, q2, -⟩ := eot_range M α dψ ε
  refine ⟨e, A, q, ?_, ?_, ?_, ?_, d4, d5, d6, d7, q1, q2⟩
  · unfold spaFull; rw [hg]; exact d1
  · unfold spaFull; rw [hg]; exact d2
  · unfold spaFull; rw [hg]; exact d3
  · unfold spaFull
    rw [hg]
    unfold spaTopo
    dsimp only
    rw [hM, hq]

/-- Apparent zenith and apparent elevation are complementary, and with refraction finite the apparent elevation is
the elevation plus the correction. -/
theorem apparent (loc : Loc) (g : Geo) : (spaTopo loc g).apparent_zenith = 90 - (spaTopo loc g).apparent_elevation ∧
    (spaTopo loc g).zenith = 90 - (spaTopo loc g).elevation ∧
    (spaTopo loc g).apparent_elevation = (spaTopo loc g).elevation +
      refractionCorrection loc.pressure loc.temp (spaTopo loc g).elevation loc.atmos_refract := ⟨rfl, rfl, rfl⟩

/-- Witness: 2020-01-01 at Golden, Colorado. -/
example : ∃ e A q, (spaFull ⟨fin 39.74, fin (-105.18), fin 1830, fin 820, fin 11, fin 0.5667⟩ (fin 1577836800) (fin 70)).elevation = fin e ∧
      (spaFull ⟨fin 39.74, fin (-105.18), fin 1830, fin 820, fin 11, fin 0.5667⟩ (fin 1577836800) (fin 70)).zenith = fin (90 - e) ∧
      (spaFull ⟨fin 39.74, fin (-105.18), fin 1830, fin 820, fin 11, fin 0.5667⟩ (fin 1577836800) (fin 70)).azimuth = fin A ∧
      (spaFull ⟨fin 39.74, fin (-105.18), fin 1830, fin 820, fin 11, fin 0.5667⟩ (fin 1577836800) (fin 70)).eot = fin q ∧
      -90 ≤ e ∧ e ≤ 90 ∧ 0 ≤ A ∧ A < 360 ∧ -1420 < q ∧ q ≤ 20 :=
  spa_total _ _ _ _ _ _ _ _ (by norm_num [abs_lt]) (by norm_num [abs_le]) (by norm_num [abs_le, daysJ2000])

/-- Witness: the refraction of a sun 10 degrees high at sea level. -/
example : ∃ d, refractionCorrection (fin 1013.25) (fin 12) (fin 10) (fin 0.5667) = fin d ∧ 0 < d ∧
    d ≤ 0.63 * (1013.25 / 1010 * (283 / (273 + 12))) :=
  refraction_pos _ _ _ _ (by norm_num) (by norm_num) (by norm_num) (by norm_num) (by norm_num)

end Pvlib.Props.SpaPosition
end
