import Verif.Props.TrigValues
import Verif.Props.SolarGeometry
import Verif.Props.SpaBounds

/-! # C117, C118: SPA geometry — equatorial coordinates, parallax, azimuth and elevation -/

noncomputable section
open scoped Classical
open Real
namespace Pvlib.Props.SpaGeometry
open Fl Pvlib.Spa Pvlib.Tools Pvlib.Props.SolarGeometry Pvlib.Props.SpaBounds

/-- Degrees to radians. -/
abbrev rad (d : ℝ) : ℝ := d * (π / 180)

/-! ## Specification: ecliptic and equatorial frames -/

/-- Unit vector of ecliptic longitude `lam` and latitude `β`, turned by the obliquity `ε` about the equinox axis:
its equatorial components. -/
def eclToEq (ε lam β : ℝ) : Fin 3 → ℝ :=
  ![Real.cos β * Real.cos lam,
    Real.cos β * Real.sin lam * Real.cos ε - Real.sin β * Real.sin ε,
    Real.cos β * Real.sin lam * Real.sin ε + Real.sin β * Real.cos ε]

theorem eclToEq_unit (ε lam β : ℝ) :
    eclToEq ε lam β 0 ^ 2 + eclToEq ε lam β 1 ^ 2 + eclToEq ε lam β 2 ^ 2 = 1 := by
  simp only [eclToEq, Matrix.cons_val_zero, Matrix.cons_val_one, Matrix.cons_val]
  have h1 := Real.sin_sq_add_cos_sq ε
  have h2 := Real.sin_sq_add_cos_sq lam
  have h3 := Real.sin_sq_add_cos_sq β
  have : ∀ sb cb sl cl se ce : ℝ, (cb * cl) ^ 2 + (cb * sl * ce - sb * se) ^ 2 + (cb * sl * se + sb * ce) ^ 2 =
      cb ^ 2 * cl ^ 2 + (cb ^ 2 * sl ^ 2 + sb ^ 2) * (se ^ 2 + ce ^ 2) := by intros; ring
  rw [this, h1, mul_one]
  have : Real.cos β ^ 2 * Real.cos lam ^ 2 + (Real.cos β ^ 2 * Real.sin lam ^ 2 + Real.sin β ^ 2) =
      Real.cos β ^ 2 * (Real.sin lam ^ 2 + Real.cos lam ^ 2) + Real.sin β ^ 2 := by ring
  rw [this, h2]
  linarith

/-! ## Angles modulo 360 -/

theorem mod_trig (x : ℝ) (y : ℝ) (hy : y = x * (180 / π) - 360 * ⌊x * (180 / π) / 360⌋) :
    Real.cos (rad y) = Real.cos x ∧ Real.sin (rad y) = Real.sin x := by
  have hp := Real.pi_pos
  have : rad y = x - (⌊x * (180 / π) / 360⌋ : ℤ) * (2 * π) := by
    rw [hy, rad]
    field_simp
    ring
  rw [this]
  exact ⟨Real.cos_sub_int_mul_two_pi _ _, Real.sin_sub_int_mul_two_pi _ _⟩

theorem rad_deg (x : ℝ) : rad (x * (180 / π)) = x := by
  have hp := Real.pi_pos
  rw [rad]
  field_simp

theorem deg_range {x a b : ℝ} (h1 : a ≤ x) (h2 : x ≤ b) : a * (180 / π) ≤ x * (180 / π) ∧ x * (180 / π) ≤ b * (180 / π) := by
  have : 0 ≤ 180 / π := by positivity
  exact ⟨mul_le_mul_of_nonneg_right h1 this, mul_le_mul_of_nonneg_right h2 this⟩

theorem arcsin_deg (s : ℝ) : -90 ≤ Real.arcsin s * (180 / π) ∧ Real.arcsin s * (180 / π) ≤ 90 := by
  have hp := Real.pi_pos
  have := deg_range (Real.neg_pi_div_two_le_arcsin s) (Real.arcsin_le_pi_div_two s)
  have e1 : -(π / 2) * (180 / π) = -90 := by field_simp; norm_num
  have e2 : π / 2 * (180 / π) = 90 := by field_simp; norm_num
  rw [e1, e2] at this
  exact this

/-! ## Right ascension and declination -/

/-- **C117.** Right ascension (in [0, 360)) and declination (in [-90, 90]) are the equatorial coordinates of the
given ecliptic direction. -/
theorem equatorial_coordinates (lam ε β : ℝ) (hβ : 0 < Real.cos (rad β)) :
    ∃ α δ, geocentricSunRightAscension (fin lam) (fin ε) (fin β) = fin α ∧
      geocentricSunDeclination (fin lam) (fin ε) (fin β) = fin δ ∧
      0 ≤ α ∧ α < 360 ∧ -90 ≤ δ ∧ δ ≤ 90 ∧
      Real.cos (rad δ) * Real.cos (rad α) = eclToEq (rad ε) (rad lam) (rad β) 0 ∧
      Real.cos (rad δ) * Real.sin (rad α) = eclToEq (rad ε) (rad lam) (rad β) 1 ∧
      Real.sin (rad δ) = eclToEq (rad ε) (rad lam) (rad β) 2 := by
  have hu := eclToEq_unit (rad ε) (rad lam) (rad β)
  set X := eclToEq (rad ε) (rad lam) (rad β) with hX
  set w : ℂ := ⟨Real.cos (rad lam), Real.sin (rad lam) * Real.cos (rad ε) - Real.tan (rad β) * Real.sin (rad ε)⟩ with hw
  have hz : X 2 ^ 2 ≤ 1 := by nlinarith [sq_nonneg (X 0), sq_nonneg (X 1)]
  have hz1 : -1 ≤ X 2 := by nlinarith
  have hz2 : X 2 ≤ 1 := by nlinarith
  have w0 : Real.cos (rad β) * w.re = X 0 := by simp [hw, hX, eclToEq]
  have w1 : Real.cos (rad β) * w.im = X 1 := by
    simp only [hw, hX, eclToEq, Matrix.cons_val_one, Matrix.cons_val_zero, Real.tan_eq_sin_div_cos]
    field_simp
  have hn : Real.cos (rad β) * ‖w‖ = Real.cos (Real.arcsin (X 2)) := by
    rw [Real.cos_arcsin, Complex.norm_def, Complex.normSq_apply, ← Real.sqrt_sq hβ.le, ← Real.sqrt_mul (sq_nonneg _)]
    congr 1
    have : Real.cos (rad β) ^ 2 * (w.re * w.re + w.im * w.im) = (Real.cos (rad β) * w.re) ^ 2 + (Real.cos (rad β) * w.im) ^ 2 := by ring
    rw [this, w0, w1]
    linarith
  have hra : geocentricSunRightAscension (fin lam) (fin ε) (fin β) =
      fin (Complex.arg w * (180 / π) - 360 * ⌊Complex.arg w * (180 / π) / 360⌋) := by
    unfold geocentricSunRightAscension
    simp only [radians_fin, sin_fin, cos_fin, ofNat_eq]
    rw [tan_fin hβ.ne']
    simp only [fin_mul, fin_sub, arctan2_fin, degrees_fin]
    rw [mod_fin (by norm_num)]
  have hde : geocentricSunDeclination (fin lam) (fin ε) (fin β) = fin (Real.arcsin (X 2) * (180 / π)) := by
    unfold geocentricSunDeclination
    simp only [radians_fin, sin_fin, cos_fin, fin_mul, fin_add]
    have : Real.sin (β * (π / 180)) * Real.cos (ε * (π / 180)) +
        Real.cos (β * (π / 180)) * Real.sin (ε * (π / 180)) * Real.sin (lam * (π / 180)) = X 2 := by
      simp only [hX, eclToEq, Matrix.cons_val, rad]
      ring
    rw [this, arcsin_fin hz1 hz2, degrees_fin]
  obtain ⟨m1, m2⟩ := mod_trig (Complex.arg w) _ rfl
  refine ⟨_, _, hra, hde, (mod360 _).1, (mod360 _).2, (arcsin_deg _).1, (arcsin_deg _).2, ?_, ?_, ?_⟩
  · rw [m1, rad_deg, ← hn, mul_assoc, Complex.norm_mul_cos_arg, w0]
  · rw [m2, rad_deg, ← hn, mul_assoc, Complex.norm_mul_sin_arg, w1]
  · rw [rad_deg, Real.sin_arcsin hz1 hz2]

example := equatorial_coordinates 280 23.4 0.0001 (by unfold rad; exact Spec.cosDeg_pos_of (by norm_num) (by norm_num))

/-! ## The observer -/

/-- **C118a.** `x` and `y` locate the observer: the point of the reference ellipsoid (equatorial radius 1, polar
radius 0.99664719) whose vertical has latitude `φ`, plus the elevation along that vertical. -/
theorem observer_point (φ E : ℝ) (h1 : -90 < φ) (h2 : φ < 90) :
    ∃ x y x0 y0 k : ℝ, xterm (uterm (fin φ)) (fin φ) (fin E) = fin x ∧ yterm (uterm (fin φ)) (fin φ) (fin E) = fin y ∧
      x0 ^ 2 + (y0 / 0.99664719) ^ 2 = 1 ∧
      0 < k ∧ x0 = k * Real.cos (rad φ) ∧ y0 / 0.99664719 ^ 2 = k * Real.sin (rad φ) ∧
      x = x0 + E / 6378140 * Real.cos (rad φ) ∧ y = y0 + E / 6378140 * Real.sin (rad φ) := by
  have hp := Real.pi_pos
  have hc : 0 < Real.cos (rad φ) := by
    apply Real.cos_pos_of_mem_Ioo
    constructor <;> rw [rad] <;> nlinarith
  set u := Real.arctan (0.99664719 * Real.tan (rad φ)) with hu
  have eu : uterm (fin φ) = fin u := by
    unfold uterm
    simp only [radians_fin, ofScientific_eq]
    rw [tan_fin hc.ne', fin_mul, arctan_fin]
  have hcu : 0 < Real.cos u := Real.cos_arctan_pos _
  refine ⟨_, _, Real.cos u, 0.99664719 * Real.sin u, Real.cos u / Real.cos (rad φ), ?_, ?_, ?_, by positivity, ?_, ?_, rfl, rfl⟩
  · unfold xterm
    rw [eu]
    simp only [radians_fin, cos_fin, ofNat_eq]
    rw [fin_div (by norm_num), fin_mul, fin_add]
  · unfold yterm
    rw [eu]
    simp only [radians_fin, sin_fin, ofNat_eq, ofScientific_eq]
    rw [fin_div (by norm_num), fin_mul, fin_mul, fin_add]
  · rw [mul_div_cancel_left₀ _ (by norm_num)]
    linarith [Real.sin_sq_add_cos_sq u]
  · field_simp
  · have ht : Real.tan u = 0.99664719 * Real.tan (rad φ) := Real.tan_arctan _
    rw [Real.tan_eq_sin_div_cos, div_eq_iff hcu.ne', Real.tan_eq_sin_div_cos] at ht
    rw [ht]
    field_simp

example := observer_point 40 1800 (by norm_num) (by norm_num)

/-! ## Parallax -/

/-- Sun as seen from the centre of the earth minus the observer (both in units of the distance to the sun):
in the frame (meridian point of the equator, west, pole). -/
def topoVec (δ H x y s : ℝ) : Fin 3 → ℝ :=
  ![Real.cos δ * Real.cos H - s * x, Real.cos δ * Real.sin H, Real.sin δ - s * y]

/-- **C118b.** The parallax correction: the corrected hour angle and declination are those of the direction from
the observer to the sun. -/
theorem parallax_direction (x y ξ H δ : ℝ) (hx : |x * Real.sin (rad ξ)| < Real.cos (rad δ)) :
    ∃ dα δ' H', parallaxSunRightAscension (fin x) (fin ξ) (fin H) (fin δ) = fin dα ∧
      topocentricSunDeclination (fin δ) (fin x) (fin y) (fin ξ) (fin dα) (fin H) = fin δ' ∧
      topocentricLocalHourAngle (fin H) (fin dα) = fin H' ∧
      |dα| < 90 ∧ 0 < Real.cos (rad δ') ∧
      ∃ ρ, 0 < ρ ∧
        ρ * (Real.cos (rad δ') * Real.cos (rad H')) = topoVec (rad δ) (rad H) x y (Real.sin (rad ξ)) 0 ∧
        ρ * (Real.cos (rad δ') * Real.sin (rad H')) = topoVec (rad δ) (rad H) x y (Real.sin (rad ξ)) 1 ∧
        ρ * Real.sin (rad δ') = topoVec (rad δ) (rad H) x y (Real.sin (rad ξ)) 2 := by
  have hp := Real.pi_pos
  set s := Real.sin (rad ξ) with hs
  set a := Real.cos (rad δ) - x * s * Real.cos (rad H) with ha
  set b := -x * s * Real.sin (rad H) with hb
  have hapos : 0 < a := by
    have h1 : x * s * Real.cos (rad H) ≤ |x * s| := by
      calc _ ≤ |x * s * Real.cos (rad H)| := le_abs_self _
        _ = |x * s| * |Real.cos (rad H)| := abs_mul _ _
        _ ≤ |x * s| := mul_le_of_le_one_right (abs_nonneg _) (Real.abs_cos_le_one _)
    rw [ha]
    linarith
  set w : ℂ := ⟨a, b⟩ with hw
  have hwn : 0 < ‖w‖ := by
    rw [norm_pos_iff]
    intro h
    have : w.re = 0 := by rw [h]; rfl
    exact hapos.ne' this
  have hcos : ‖w‖ * Real.cos (Complex.arg w) = a := Complex.norm_mul_cos_arg w
  have hsin : ‖w‖ * Real.sin (Complex.arg w) = b := Complex.norm_mul_sin_arg w
  have hcpos : 0 < Real.cos (Complex.arg w) := by
    by_contra hneg
    push Not at hneg
    nlinarith
  set dα := Complex.arg w * (180 / π) with hdα
  have e1 : parallaxSunRightAscension (fin x) (fin ξ) (fin H) (fin δ) = fin dα := by
    unfold parallaxSunRightAscension
    simp only [radians_fin, sin_fin, cos_fin, neg_fin, fin_mul, fin_sub, arctan2_fin, degrees_fin]
    rfl
  set c := (Real.sin (rad δ) - y * s) * Real.cos (Complex.arg w) with hc
  set v : ℂ := ⟨a, c⟩ with hv
  have hradα : rad dα = Complex.arg w := rad_deg _
  have e2 : topocentricSunDeclination (fin δ) (fin x) (fin y) (fin ξ) (fin dα) (fin H) =
      fin (Complex.arg v * (180 / π)) := by
    unfold topocentricSunDeclination
    simp only [radians_fin, sin_fin, cos_fin, fin_mul, fin_sub, arctan2_fin, degrees_fin]
    rw [show dα * (π / 180) = Complex.arg w from hradα]
  have e3 : topocentricLocalHourAngle (fin H) (fin dα) = fin (H - dα) := by simp [topocentricLocalHourAngle]
  have hvn : 0 < ‖v‖ := by
    rw [norm_pos_iff]
    intro h
    have : v.re = 0 := by rw [h]; rfl
    exact hapos.ne' this
  have vcos : ‖v‖ * Real.cos (Complex.arg v) = a := Complex.norm_mul_cos_arg v
  have vsin : ‖v‖ * Real.sin (Complex.arg v) = c := Complex.norm_mul_sin_arg v
  have vpos : 0 < Real.cos (Complex.arg v) := by
    by_contra hneg
    push Not at hneg
    nlinarith
  have hradδ : rad (Complex.arg v * (180 / π)) = Complex.arg v := rad_deg _
  have hradH : rad (H - dα) = rad H - Complex.arg w := by
    rw [← hradα, rad, rad, rad]
    ring
  refine ⟨dα, _, _, e1, e2, e3, ?_, ?_, ‖v‖ / Real.cos (Complex.arg w), by positivity, ?_, ?_, ?_⟩
  · have habs : |Complex.arg w| < π / 2 := Complex.abs_arg_lt_pi_div_two_iff.mpr (Or.inl hapos)
    rw [hdα, abs_mul, abs_of_pos (show 0 < 180 / π by positivity)]
    calc |Complex.arg w| * (180 / π) < π / 2 * (180 / π) := mul_lt_mul_of_pos_right habs (by positivity)
      _ = 90 := by field_simp; norm_num
  · rw [hradδ]; exact vpos
  · rw [hradδ, hradH, Real.cos_sub]
    have : ‖v‖ / Real.cos (Complex.arg w) * (Real.cos (Complex.arg v) * (Real.cos (rad H) * Real.cos (Complex.arg w) + Real.sin (rad H) * Real.sin (Complex.arg w)))
        = (‖v‖ * Real.cos (Complex.arg v)) / Real.cos (Complex.arg w) * (Real.cos (rad H) * Real.cos (Complex.arg w) + Real.sin (rad H) * Real.sin (Complex.arg w)) := by ring
    rw [this, vcos]
    have hq : a / Real.cos (Complex.arg w) = ‖w‖ := by rw [div_eq_iff hcpos.ne', hcos]
    rw [hq]
    have : ‖w‖ * (Real.cos (rad H) * Real.cos (Complex.arg w) + Real.sin (rad H) * Real.sin (Complex.arg w)) =
        Real.cos (rad H) * (‖w‖ * Real.cos (Complex.arg w)) + Real.sin (rad H) * (‖w‖ * Real.sin (Complex.arg w)) := by ring
    rw [this, hcos, hsin, ha, hb]
    simp only [topoVec, Matrix.cons_val_zero]
    have := Real.sin_sq_add_cos_sq (rad H)
    linear_combination (-(x * s)) * this
  · rw [hradδ, hradH, Real.sin_sub]
    have : ‖v‖ / Real.cos (Complex.arg w) * (Real.cos (Complex.arg v) * (Real.sin (rad H) * Real.cos (Complex.arg w) - Real.cos (rad H) * Real.sin (Complex.arg w)))
        = (‖v‖ * Real.cos (Complex.arg v)) / Real.cos (Complex.arg w) * (Real.sin (rad H) * Real.cos (Complex.arg w) - Real.cos (rad H) * Real.sin (Complex.arg w)) := by ring
    rw [this, vcos]
    have hq : a / Real.cos (Complex.arg w) = ‖w‖ := by rw [div_eq_iff hcpos.ne', hcos]
    rw [hq]
    have : ‖w‖ * (Real.sin (rad H) * Real.cos (Complex.arg w) - Real.cos (rad H) * Real.sin (Complex.arg w)) =
        Real.sin (rad H) * (‖w‖ * Real.cos (Complex.arg w)) - Real.cos (rad H) * (‖w‖ * Real.sin (Complex.arg w)) := by ring
    rw [this, hcos, hsin, ha, hb]
    simp only [topoVec, Matrix.cons_val_one, Matrix.cons_val_zero]
    ring
  · rw [hradδ, div_mul_eq_mul_div, vsin, hc]
    simp only [topoVec, Matrix.cons_val]
    field_simp

/-! ## Azimuth and elevation -/

/-- **C118c.** Elevation (in [-90, 90]) and azimuth (in [0, 360), clockwise from north) are those of the direction
with hour angle `H'` and declination `δ'` over the horizon of latitude `φ`. -/
theorem horizon_direction (φ δ' H' : ℝ) (hδ : 0 < Real.cos (rad δ')) :
    ∃ e A, topocentricElevation0 (fin φ) (fin δ') (fin H') = fin e ∧
      topocentricAzimuth (astronomersAzimuth (fin H') (fin δ') (fin φ)) = fin A ∧
      -90 ≤ e ∧ e ≤ 90 ∧ 0 ≤ A ∧ A < 360 ∧
      Real.sin (rad e) = sunUp (rad φ) (rad δ') (rad H') ∧
      Real.cos (rad e) * Real.cos (rad A) = sunNorth (rad φ) (rad δ') (rad H') ∧
      Real.cos (rad e) * Real.sin (rad A) = sunEast (rad δ') (rad H') := by
  have hp := Real.pi_pos
  have hm := sunUp_mem (rad φ) (rad δ') (rad H')
  set x := Real.cos (rad H') * Real.sin (rad φ) - Real.tan (rad δ') * Real.cos (rad φ) with hx
  set w : ℂ := ⟨x, Real.sin (rad H')⟩ with hw
  have hxN : Real.cos (rad δ') * x = -sunNorth (rad φ) (rad δ') (rad H') := by
    rw [sunNorth_eq, hx, Real.tan_eq_sin_div_cos]; field_simp; ring
  have hyE : Real.cos (rad δ') * Real.sin (rad H') = -sunEast (rad δ') (rad H') := by rw [sunEast_eq]; ring
  have hnorm : Real.cos (rad δ') * ‖w‖ = Real.cos (Real.arcsin (sunUp (rad φ) (rad δ') (rad H'))) := by
    rw [Real.cos_arcsin, Complex.norm_def, Complex.normSq_mk, ← Real.sqrt_sq hδ.le, ← Real.sqrt_mul (sq_nonneg _)]
    congr 1
    have := sun_unit (rad φ) (rad δ') (rad H')
    have e : Real.cos (rad δ') ^ 2 * (x * x + Real.sin (rad H') * Real.sin (rad H')) =
      (Real.cos (rad δ') * x) ^ 2 + (Real.cos (rad δ') * Real.sin (rad H')) ^ 2 := by ring
    rw [e, hxN, hyE]
    linarith [this]
  have e1 : topocentricElevation0 (fin φ) (fin δ') (fin H') =
      fin (Real.arcsin (sunUp (rad φ) (rad δ') (rad H')) * (180 / π)) := by
    unfold topocentricElevation0
    simp only [radians_fin, sin_fin, cos_fin, fin_mul, fin_add]
    have : Real.sin (φ * (π / 180)) * Real.sin (δ' * (π / 180)) +
        Real.cos (φ * (π / 180)) * Real.cos (δ' * (π / 180)) * Real.cos (H' * (π / 180)) =
        sunUp (rad φ) (rad δ') (rad H') := by rw [sunUp_eq]; ring
    rw [this, arcsin_fin hm.1 hm.2, degrees_fin]
  set g := Complex.arg w * (180 / π) - 360 * ⌊Complex.arg w * (180 / π) / 360⌋ with hg
  have e2 : astronomersAzimuth (fin H') (fin δ') (fin φ) = fin g := by
    unfold astronomersAzimuth
    simp only [radians_fin, sin_fin, cos_fin, ofNat_eq]
    rw [tan_fin hδ.ne']
    simp only [fin_mul, fin_sub, arctan2_fin, degrees_fin]
    rw [mod_fin (by norm_num)]
  obtain ⟨m1, m2⟩ := mod_trig (Complex.arg w) g hg
  set A := g + 180 - 360 * ⌊(g + 180) / 360⌋ with hA
  have e3 : topocentricAzimuth (fin g) = fin A := by
    unfold topocentricAzimuth
    simp only [ofNat_eq, fin_add]
    rw [mod_fin (by norm_num)]
  have hAt : Real.cos (rad A) = -Real.cos (rad g) ∧ Real.sin (rad A) = -Real.sin (rad g) := by
    have : rad A = (rad g + π) - (⌊(g + 180) / 360⌋ : ℤ) * (2 * π) := by
      rw [hA, rad, rad]
      ring
    rw [this, Real.cos_sub_int_mul_two_pi, Real.sin_sub_int_mul_two_pi, Real.cos_add_pi, Real.sin_add_pi]
    exact ⟨rfl, rfl⟩
  refine ⟨_, A, e1, by rw [e2, e3], (arcsin_deg _).1, (arcsin_deg _).2, (mod360 _).1, (mod360 _).2, ?_, ?_, ?_⟩
  · rw [rad_deg, Real.sin_arcsin hm.1 hm.2]
  · rw [rad_deg, ← hnorm, hAt.1, m1, mul_neg, mul_assoc, Complex.norm_mul_cos_arg, hxN, neg_neg]
  · rw [rad_deg, ← hnorm, hAt.2, m2, mul_neg, mul_assoc, Complex.norm_mul_sin_arg, hyE, neg_neg]

example := horizon_direction 40 (-9) 11 (by unfold rad; exact Spec.cosDeg_pos_of (by norm_num) (by norm_num))

end Pvlib.Props.SpaGeometry
end
