import Verif.Props.TrigValues
import Verif.Model.Shading
import Verif.Props.Geometry

/-!
# Single-axis tracking (C13–C16)
-/

noncomputable section
open scoped Classical
open Real
namespace Pvlib.Props.Tracking
open Fl Pvlib.Irradiance Pvlib.Tools Pvlib.Shading Pvlib.Tracking Pvlib.Spec Pvlib.Props.Geometry

/-! ## Specification: the rotated tracker plane -/

/-- Normal of the tracker plane: rotate the normal of the un-rotated plane (tilted by `axisTilt`
towards `axisAz`) by `theta` about the axis; positive rotation turns it to the right-hand side of
the axis azimuth, i.e. towards `axisAz + 90`. -/
def trackerNormal (theta axisTilt axisAz : ℝ) : Vec :=
  let n0 := dirVec axisTilt axisAz
  let right := dirVec 90 (axisAz + 90)
  ⟨cosDeg theta * n0.x + sinDeg theta * right.x, cosDeg theta * n0.y + sinDeg theta * right.y,
    cosDeg theta * n0.z + sinDeg theta * right.z⟩

/-- Direction of the tracker axis (pointing down towards `axisAz` for a positive tilt). -/
def axisVec (axisTilt axisAz : ℝ) : Vec := dirVec (90 + axisTilt) axisAz

theorem right_eq (az : ℝ) : dirVec 90 (az + 90) = ⟨cosDeg az, -sinDeg az, 0⟩ := by
  have h1 : (90 : ℝ) * (π / 180) = π / 2 := by ring
  have h2 : (az + 90) * (π / 180) = az * (π / 180) + π / 2 := by ring
  simp [dirVec, sinDeg, cosDeg, h1, h2, Real.sin_add_pi_div_two, Real.cos_add_pi_div_two]

/-- Sanity of the specification: the normal is a unit vector, perpendicular to the axis. -/
theorem trackerNormal_unit (t b a : ℝ) : dot (trackerNormal t b a) (trackerNormal t b a) = 1 := by
  simp only [trackerNormal, right_eq]; simp only [dirVec, dot, cosDeg, sinDeg]
  have h1 := Real.sin_sq_add_cos_sq (t * (π / 180))
  have h2 := Real.sin_sq_add_cos_sq (b * (π / 180))
  have h3 := Real.sin_sq_add_cos_sq (a * (π / 180))
  linear_combination (Real.cos (t * (π / 180)) ^ 2 * Real.sin (b * (π / 180)) ^ 2 +
    Real.sin (t * (π / 180)) ^ 2) * h3 + Real.cos (t * (π / 180)) ^ 2 * h2 + h1

theorem trackerNormal_perp (t b a : ℝ) : dot (trackerNormal t b a) (axisVec b a) = 0 := by
  have h2 : (90 + b) * (π / 180) = b * (π / 180) + π / 2 := by ring
  simp only [trackerNormal, right_eq]; simp only [axisVec, dirVec, dot, cosDeg, sinDeg, h2,
    Real.sin_add_pi_div_two, Real.cos_add_pi_div_two]
  have h3 := Real.sin_sq_add_cos_sq (a * (π / 180))
  linear_combination (Real.cos (t * (π / 180)) * Real.sin (b * (π / 180)) * Real.cos (b * (π / 180))) * h3

/-! ## C14 -/

theorem unitNormal_fin (t b a : ℝ) : unitNormal (fin a) (fin b) (fin t) =
    (fin (trackerNormal t b a).x, fin (trackerNormal t b a).y, fin (trackerNormal t b a).z) := by
  simp only [trackerNormal, right_eq]
  simp only [unitNormal, cosd_fin, sind_fin, neg_fin, fin_mul, fin_add, fin_sub, neg_mul,
    Real.cos_neg, Real.sin_neg, dirVec, cosDeg, sinDeg, Prod.mk.injEq, fin_inj]
  refine ⟨by ring, by ring, by ring⟩

theorem normal_z (t b a : ℝ) : (trackerNormal t b a).z = cosDeg t * cosDeg b := by
  simp only [trackerNormal, right_eq]; simp [dirVec]

theorem cos_prod_bounds (t b : ℝ) : -1 ≤ cosDeg t * cosDeg b ∧ cosDeg t * cosDeg b ≤ 1 := by
  have := abs_le_one_iff_mul_self_le_one.mp (Real.abs_cos_le_one (t * (π / 180)))
  have := abs_le_one_iff_mul_self_le_one.mp (Real.abs_cos_le_one (b * (π / 180)))
  constructor <;> nlinarith [sq_nonneg (cosDeg t - cosDeg b), sq_nonneg (cosDeg t + cosDeg b)]

theorem deg_rad (x : ℝ) : x * (180 / π) * (π / 180) = x := by field_simp

/-- Reducing a degree angle modulo 360 leaves its sine and cosine alone. -/
theorem sinDeg_mod (x : ℝ) (k : ℤ) : sinDeg (x - 360 * k) = sinDeg x := by
  have : (x - 360 * k) * (π / 180) = x * (π / 180) - k * (2 * π) := by ring
  simp [sinDeg, this]
theorem cosDeg_mod (x : ℝ) (k : ℤ) : cosDeg (x - 360 * k) = cosDeg x := by
  have : (x - 360 * k) * (π / 180) = x * (π / 180) - k * (2 * π) := by ring
  simp [cosDeg, this]

/-- C14. For every rotation, axis tilt and axis azimuth, the (tilt, azimuth) returned by
`calc_surface_orientation` describes exactly the normal of the rotated plane; the tilt is in
[0, 180] and the azimuth in [0, 360). -/
theorem surfaceOrientation_normal (t b a : ℝ) :
    ∃ tilt az : ℝ, calcSurfaceOrientation (fin t) (fin b) (fin a) = (fin tilt, fin az) ∧
      dirVec tilt az = trackerNormal t b a ∧ 0 ≤ tilt ∧ tilt ≤ 180 ∧ 0 ≤ az ∧ az < 360 := by
  have hb := cos_prod_bounds t b
  set N := trackerNormal t b a with hN
  have hz : N.z = cosDeg t * cosDeg b := normal_z t b a
  have hunit : N.x * N.x + N.y * N.y + N.z * N.z = 1 := trackerNormal_unit t b a
  let tilt := Real.arccos (cosDeg t * cosDeg b) * (180 / π)
  let w : ℂ := ⟨N.y, N.x⟩
  let az0 := if tilt = 0 then a - 90 else Complex.arg w * (180 / π)
  have hpi := Real.pi_pos
  have hcosT : cosDeg tilt = N.z := by
    simp only [cosDeg, tilt, deg_rad]; rw [Real.cos_arccos hb.1 hb.2, hz]
  have hsinT : sinDeg tilt = ‖w‖ := by
    simp only [sinDeg, tilt, deg_rad]
    rw [Real.sin_arccos, Complex.norm_def]
    congr 1
    rw [Complex.normSq_mk, ← hz]; nlinarith
  have h0 : 0 ≤ tilt := by have := Real.arccos_nonneg (cosDeg t * cosDeg b); positivity
  have h180 : tilt ≤ 180 := by
    have := Real.arccos_le_pi (cosDeg t * cosDeg b)
    simp only [tilt]; rw [mul_div_assoc', div_le_iff₀ hpi]; linarith
  have hsin : sinDeg tilt * sinDeg az0 = N.x := by
    rw [hsinT]
    by_cases hw : w = 0
    · have : N.x = 0 := by have := congrArg Complex.im hw; simpa [w] using this
      simp [hw, this]
    · have hne : tilt ≠ 0 := by
        intro h
        have : ‖w‖ = 0 := by rw [← hsinT, h]; simp [sinDeg]
        exact hw (norm_eq_zero.mp this)
      simp only [az0, if_neg hne, sinDeg, deg_rad]
      rw [Complex.sin_arg]
      field_simp [norm_ne_zero_iff.mpr hw]
      rfl
  have hcos : sinDeg tilt * cosDeg az0 = N.y := by
    rw [hsinT]
    by_cases hw : w = 0
    · have : N.y = 0 := by have := congrArg Complex.re hw; simpa [w] using this
      simp [hw, this]
    · have hne : tilt ≠ 0 := by
        intro h
        have : ‖w‖ = 0 := by rw [← hsinT, h]; simp [sinDeg]
        exact hw (norm_eq_zero.mp this)
      simp only [az0, if_neg hne, cosDeg, deg_rad]
      rw [Complex.cos_arg hw]
      field_simp [norm_ne_zero_iff.mpr hw]
      rfl
  refine ⟨tilt, az0 - 360 * ⌊az0 / 360⌋, ?_, ?_, h0, h180, ?_, ?_⟩
  · simp only [calcSurfaceOrientation, unitNormal_fin, cosd_fin, fin_mul, acosd,
      arccos_fin hb.1 hb.2, degrees_fin, arctan2_fin, zero_eq, eqv_fin, ofNat_eq]
    have : npwhere (Real.arccos (cosDeg t * cosDeg b) * (180 / π) = 0) (fin a - fin 90)
        (fin (Complex.arg ⟨N.y, N.x⟩ * (180 / π))) = fin az0 := by
      simp only [npwhere, az0, tilt, w]
      split_ifs <;> simp
    simp only [cosDeg, hN] at this ⊢
    rw [this, mod_fin (by norm_num)]
  · apply Vec.ext'
    · simp only [dirVec]; rw [sinDeg_mod, hsin]
    · simp only [dirVec]; rw [cosDeg_mod, hcos]
    · simp only [dirVec]; exact hcosT
  · have := Int.floor_le (az0 / 360); linarith [(le_div_iff₀ (by norm_num : (0:ℝ) < 360)).mp this]
  · have := Int.lt_floor_add_one (az0 / 360)
    have := (div_lt_iff₀ (by norm_num : (0:ℝ) < 360)).mp this
    linarith

/-! ## C13 -/

/-- C13(a). Sun below the horizon: every output is NaN, whatever the other inputs. -/
theorem singleaxis_night (zen saz tilt az : Fl) (m : MaxAngle) (bt : Bool) (gcr ct : Fl)
    (h : 90 < zen) :
    singleaxis zen saz tilt az m bt gcr ct = ⟨nan, nan, nan, nan⟩ := by
  simp only [singleaxis, npwhere, if_pos h]

example := singleaxis_night (fin 95) (fin 90) (fin 0) (fin 0) (.scalar (fin 60)) true (fin 0.3) (fin 0)
  (by rw [Fl.ofNat_eq]; simp only [fin_lt]; norm_num)

/-- The rotation limits as a pair of reals. -/
def limits : MaxAngle → Option (ℝ × ℝ)
  | .scalar (fin a) => some (-a, a)
  | .pair (fin lo) (fin hi) => some (lo, hi)
  | _ => none

/-- C13(b). For every input the rotation is NaN or within the limits (lower ≤ upper), the tilt is NaN or
in [0, 180], the azimuth NaN or in [0, 360), and aoi NaN or in [0, 180]. -/
theorem singleaxis_ranges (zen saz tilt az : Fl) (m : MaxAngle) (bt : Bool) (gcr ct : Fl) (lo hi : ℝ)
    (hm : limits m = some (lo, hi)) (hle : lo ≤ hi) :
    let o := singleaxis zen saz tilt az m bt gcr ct
    NanOr o.tracker_theta (fun r => lo ≤ r ∧ r ≤ hi) ∧
    NanOr o.surface_tilt (fun r => 0 ≤ r ∧ r ≤ 180) ∧
    NanOr o.surface_azimuth (fun r => 0 ≤ r ∧ r < 360) ∧
    NanOr o.aoi (fun r => 0 ≤ r ∧ r ≤ 180) := by
  by_cases hz : (90 : Fl) < zen
  · simp [singleaxis_night _ _ _ _ _ _ _ _ hz]
  have hlims : m.lims = (fin lo, fin hi) := by
    cases m with
    | scalar a =>
      cases a <;> simp [limits] at hm
      obtain ⟨rfl, rfl⟩ := hm; rfl
    | pair l h =>
      cases l <;> cases h <;> simp [limits] at hm
      obtain ⟨rfl, rfl⟩ := hm; rfl
  simp only [singleaxis, hlims, npwhere, hz, if_false]
  generalize hth : clip _ (fin lo) (fin hi) = th
  have hr := hth ▸ clip_range _ hle
  refine ⟨hr, ?_, ?_, aoi_range _ _ _ _⟩
  · simp only [calcSurfaceOrientation]
    generalize cosd th * cosd tilt = c
    cases c with
    | fin c =>
      by_cases hc : c < -1 ∨ 1 < c
      · left; simp [acosd, arccos_fin', hc]
      · rw [not_or, not_lt, not_lt] at hc
        right
        refine ⟨_, by simp [acosd, arccos_fin hc.1 hc.2]; rfl, ?_, ?_⟩
        · have := Real.arccos_nonneg c; have := Real.pi_pos; positivity
        · have := Real.arccos_le_pi c
          rw [mul_div_assoc', div_le_iff₀ Real.pi_pos]; linarith
    | _ => left; simp [acosd, Fl.arccos]
  · simp only [calcSurfaceOrientation]
    generalize npwhere _ _ _ = x
    cases x with
    | fin x =>
      right
      refine ⟨_, by rw [ofNat_eq, mod_fin (by norm_num)], ?_, ?_⟩
      · have := Int.floor_le (x / OfNat.ofNat 360)
        have := (le_div_iff₀ (by norm_num : (0:ℝ) < 360)).mp this; linarith
      · have := Int.lt_floor_add_one (x / 360)
        have := (div_lt_iff₀ (by norm_num : (0:ℝ) < 360)).mp this
        linarith
    | _ => left; simp [Fl.mod]

example := singleaxis_ranges (fin 60) (fin 90) (fin 0) (fin 0) (.pair (fin (-45)) (fin 60)) true (fin 0.3) (fin 0) (-45) 60 rfl
  (by norm_num)

/-! ### The ideal rotation for real inputs -/

/-- Component of the sun vector across the axis, and along the un-rotated normal. -/
def sunAcross (zen saz az : ℝ) : ℝ := dot (dirVec zen saz) (dirVec 90 (az + 90))
def sunNormal (zen saz tilt az : ℝ) : ℝ := dot (dirVec zen saz) (dirVec tilt az)

/-- The projected solar zenith angle as a real number of degrees. -/
def psza (zen saz tilt az : ℝ) : ℝ :=
  Complex.arg ⟨sunNormal zen saz tilt az, sunAcross zen saz az⟩ * (180 / π)

theorem projected_fin (zen saz tilt az : ℝ) :
    projectedSolarZenithAngle (fin zen) (fin saz) (fin tilt) (fin az) =
      fin (psza zen saz tilt az) := by
  simp only [psza, sunAcross, right_eq]
  simp only [projectedSolarZenithAngle, cosd_fin, sind_fin, fin_mul, fin_add, fin_sub, arctan2_fin,
    degrees_fin, fin_inj, sunNormal, dot, dirVec, cosDeg, sinDeg]
  congr 3 <;> ring

theorem psza_range (zen saz tilt az : ℝ) : -180 < psza zen saz tilt az ∧ psza zen saz tilt az ≤ 180 := by
  have hpi := Real.pi_pos
  have h1 := Complex.neg_pi_lt_arg ⟨sunNormal zen saz tilt az, sunAcross zen saz az⟩
  have h2 := Complex.arg_le_pi ⟨sunNormal zen saz tilt az, sunAcross zen saz az⟩
  unfold psza
  rw [mul_div_assoc']
  constructor
  · rw [lt_div_iff₀ hpi]; linarith
  · rw [div_le_iff₀ hpi]; linarith

/-- The cosine of the incidence angle on the plane rotated by `t` is `R cos(t - psza)`, `R ≥ 0`. -/
theorem sun_dot_normal (zen saz tilt az t : ℝ) :
    dot (trackerNormal t tilt az) (dirVec zen saz) =
      ‖(⟨sunNormal zen saz tilt az, sunAcross zen saz az⟩ : ℂ)‖ *
        cosDeg (t - psza zen saz tilt az) := by
  set w : ℂ := ⟨sunNormal zen saz tilt az, sunAcross zen saz az⟩ with hw
  have e : (t - psza zen saz tilt az) * (π / 180) = t * (π / 180) - Complex.arg w := by
    rw [sub_mul, psza, deg_rad]
  have h1 : ‖w‖ * Real.cos (Complex.arg w) = w.re := Complex.norm_mul_cos_arg w
  have h2 : ‖w‖ * Real.sin (Complex.arg w) = w.im := Complex.norm_mul_sin_arg w
  have hl : dot (trackerNormal t tilt az) (dirVec zen saz) =
      cosDeg t * sunNormal zen saz tilt az + sinDeg t * sunAcross zen saz az := by
    simp only [trackerNormal, dot, sunNormal, sunAcross]; ring
  rw [hl]
  simp only [cosDeg, sinDeg]
  rw [e, Real.cos_sub]
  have hre : w.re = sunNormal zen saz tilt az := rfl
  have him : w.im = sunAcross zen saz az := rfl
  rw [← hre, ← him, ← h1, ← h2]
  ring

/-! ## C15 -/

/-- aoi computed for a plane with a given normal depends only on the normal. -/
theorem aoi_of_normal (t b a zen saz : ℝ) :
    ∃ r, aoi (calcSurfaceOrientation (fin t) (fin b) (fin a)).1
        (calcSurfaceOrientation (fin t) (fin b) (fin a)).2 (fin zen) (fin saz) = fin r ∧
      0 ≤ r ∧ r ≤ 180 ∧ cosDeg r = dot (trackerNormal t b a) (dirVec zen saz) := by
  obtain ⟨tilt, az, h, hn, -⟩ := surfaceOrientation_normal t b a
  rw [h]
  obtain ⟨r, hr, h0, h1, hc⟩ := aoi_spec tilt az zen saz
  exact ⟨r, hr, h0, h1, by rw [hc, hn]⟩

theorem cosDeg_le_iff {x y : ℝ} (hx : 0 ≤ x) (hy' : y ≤ 180) (h : x ≤ y) : cosDeg y ≤ cosDeg x := by
  have hpi := Real.pi_pos
  apply Real.cos_le_cos_of_nonneg_of_le_pi (by positivity)
  · have : y * (π / 180) ≤ 180 * (π / 180) := mul_le_mul_of_nonneg_right hy' (by positivity)
    linarith
  · exact mul_le_mul_of_nonneg_right h (by positivity)

theorem le_of_cosDeg_le {x y : ℝ} (hx' : x ≤ 180) (hy : 0 ≤ y)
    (h : cosDeg y ≤ cosDeg x) : x ≤ y := by
  by_contra hc
  rw [not_le] at hc
  have hpi := Real.pi_pos
  have : cosDeg x < cosDeg y := by
    apply Real.cos_lt_cos_of_nonneg_of_le_pi (by positivity)
    · have : x * (π / 180) ≤ 180 * (π / 180) := mul_le_mul_of_nonneg_right hx' (by positivity)
      linarith
    · exact mul_lt_mul_of_pos_right hc (by positivity)
  linarith

/-- Clipping to a symmetric interval gives the closest admissible rotation to `w` on the circle. -/
theorem clip_best (w t A : ℝ) (hw : -180 ≤ w) (hw' : w ≤ 180) (hA : 0 ≤ A) (ht : -A ≤ t)
    (ht' : t ≤ A) (hA' : A ≤ 180) :
    cosDeg (t - w) ≤ cosDeg (min (max w (-A)) A - w) := by
  have hev : ∀ x, cosDeg x = cosDeg |x| := by
    intro x; rw [cosDeg, cosDeg]
    rcases abs_cases x with ⟨h, _⟩ | ⟨h, _⟩
    · rw [h]
    · rw [h, neg_mul, Real.cos_neg]
  have hturn : ∀ x, cosDeg x = cosDeg (360 - x) := by
    intro x
    have : (360 - x) * (π / 180) = 2 * π - x * (π / 180) := by ring
    rw [cosDeg, cosDeg, this, Real.cos_two_pi_sub]
  rw [hev (t - w), hev (min (max w (-A)) A - w)]
  -- distance after clipping
  set d := |min (max w (-A)) A - w| with hd
  have hd0 : 0 ≤ d := abs_nonneg _
  set e := |t - w| with he
  have hde : d ≤ e ∧ d + e ≤ 360 := by
    simp only [hd, he]
    rcases le_total w (-A) with h1 | h1
    · have e1 : max w (-A) = -A := max_eq_right h1
      have e2 : min (-A) A = -A := min_eq_left (by linarith)
      rw [e1, e2, abs_of_nonneg (by linarith), abs_of_nonneg (by linarith)]
      constructor <;> linarith
    · have e1 : max w (-A) = w := max_eq_left h1
      rw [e1]
      rcases le_total w A with h2 | h2
      · rw [min_eq_left h2, sub_self, abs_zero]
        refine ⟨abs_nonneg _, ?_⟩
        rw [zero_add, abs_le]; constructor <;> linarith
      · rw [min_eq_right h2, abs_of_nonpos (by linarith), abs_of_nonpos (by linarith)]
        constructor <;> linarith
  rcases le_total e 180 with h | h
  · exact cosDeg_le_iff hd0 h hde.1
  · rw [hturn e]
    exact cosDeg_le_iff hd0 (by linarith) (by linarith)

/-- C15. With backtracking off and symmetric rotation limits `[-A, A]` (`A = 180`: no limit), whenever
the sun is up the tracker's angle of incidence is the smallest achievable by any admissible rotation
about the same axis. -/
theorem trueTracking_optimal (zen saz tilt az gcr ct A : ℝ) (hz : zen ≤ 90) (hA : 0 ≤ A) (hA' : A ≤ 180)
    (t : ℝ) (ht : -A ≤ t) (ht' : t ≤ A) :
    ∃ r r' : ℝ,
      (singleaxis (fin zen) (fin saz) (fin tilt) (fin az) (.scalar (fin A)) false (fin gcr)
        (fin ct)).aoi = fin r ∧
      aoi (calcSurfaceOrientation (fin t) (fin tilt) (fin az)).1
        (calcSurfaceOrientation (fin t) (fin tilt) (fin az)).2 (fin zen) (fin saz) = fin r' ∧
      r ≤ r' := by
  have hz' : ¬ ((90 : Fl) < fin zen) := by simpa using hz
  obtain ⟨r, hr, hr0, hr1, hrc⟩ := aoi_of_normal (min (max (psza zen saz tilt az) (-A)) A) tilt az zen saz
  obtain ⟨r', hr', hr0', hr1', hrc'⟩ := aoi_of_normal t tilt az zen saz
  refine ⟨r, r', ?_, hr', ?_⟩
  · rw [← hr]
    simp only [singleaxis, hz', if_false, npwhere, projected_fin, MaxAngle.lims, neg_fin, clip_fin,
      Bool.false_eq_true]
  · apply le_of_cosDeg_le hr1 hr0'
    rw [hrc, hrc', sun_dot_normal, sun_dot_normal]
    exact mul_le_mul_of_nonneg_left
      (clip_best _ _ _ (psza_range zen saz tilt az).1.le (psza_range zen saz tilt az).2 hA ht ht' hA')
      (norm_nonneg _)

example : (60 : ℝ) ≤ 90 ∧ (0 : ℝ) ≤ 55 ∧ (55 : ℝ) ≤ 180 ∧ (-55 : ℝ) ≤ 20 ∧ (20 : ℝ) ≤ 55 := by norm_num

/-! ## C16: backtracking removes row-to-row shade -/

/-- Real-number form of the backtracked rotation for the ideal rotation `w`. -/
def btTheta (w gcr ct : ℝ) : ℝ :=
  let temp := |1 / (gcr * cosDeg ct) * cosDeg (w - ct)|
  if temp < 1 then
    w - (if 0 < w then 1 else if w < 0 then -1 else 0) * Real.arccos temp * (180 / π)
  else w

theorem backtrackTheta_fin (w gcr ct : ℝ) (hg : gcr ≠ 0) (hc : cosDeg ct ≠ 0) :
    backtrackTheta (fin w) (fin gcr) (fin ct) = fin (btTheta w gcr ct) := by
  have h0 : gcr * cosDeg ct ≠ 0 := mul_ne_zero hg hc
  have hx : (0 : ℝ) ≤ |1 / (gcr * cosDeg ct) * cosDeg (w - ct)| := abs_nonneg _
  simp only [backtrackTheta, btTheta, cosd_fin, fin_mul, one_eq, fin_div h0, fin_sub, abs_fin, npwhere,
    fin_lt]
  by_cases h : |1 / (gcr * cosDeg ct) * cosDeg (w - ct)| < 1
  · simp only [h, if_true, arccos_fin (by linarith : (-1:ℝ) ≤ |1 / (gcr * cosDeg ct) * cosDeg (w - ct)|) h.le,
      sign_fin, neg_fin, fin_mul, degrees_fin, fin_add, fin_inj]
    ring
  · simp only [h, if_false, zero_eq, fin_add, add_zero]

/-- A sun due east of a horizontal north-south axis: the projected angle is its zenith angle. -/
theorem psza_east (z : ℝ) (h0 : 0 ≤ z) (h1 : z ≤ 180) : psza z 90 0 0 = z := by
  have hpi := Real.pi_pos
  have hn : sunNormal z 90 0 0 = Real.cos (z * (π / 180)) := by simp [sunNormal, dot, dirVec, cosDeg, sinDeg]
  have ha : sunAcross z 90 0 = Real.sin (z * (π / 180)) := by
    have h90 : (90 : ℝ) * (π / 180) = π / 2 := by ring
    simp [sunAcross, dot, dirVec, cosDeg, sinDeg, h90]
  have hc : (⟨sunNormal z 90 0 0, sunAcross z 90 0⟩ : ℂ) =
      Complex.cos ((z * (π / 180) : ℝ) : ℂ) + Complex.sin ((z * (π / 180) : ℝ) : ℂ) * Complex.I := by
    rw [hn, ha, ← Complex.ofReal_cos, ← Complex.ofReal_sin]
    generalize Real.cos (z * (π / 180)) = a; generalize Real.sin (z * (π / 180)) = b
    apply Complex.ext <;> simp
  rw [psza, hc, Complex.arg_cos_add_sin_mul_I ⟨by nlinarith, by nlinarith⟩]
  field_simp

/-! ## C13(c): a real sun above the horizon gives real outputs -/

/-- C13(c). With finite inputs, a sun at or above the horizon, finite ordered limits, `gcr ≠ 0` and a
cross-axis tilt that is not vertical, none of the four outputs is NaN, and the reported surface
orientation is that of the plane rotated by the reported `tracker_theta`. -/
theorem singleaxis_day (zen saz tilt az gcr ct lo hi : ℝ) (bt : Bool) (hz : zen ≤ 90) (hg : gcr ≠ 0)
    (hc : cosDeg ct ≠ 0) :
    ∃ theta aoi_ stilt saz' : ℝ,
      singleaxis (fin zen) (fin saz) (fin tilt) (fin az) (.pair (fin lo) (fin hi)) bt (fin gcr) (fin ct) =
        ⟨fin theta, fin aoi_, fin saz', fin stilt⟩ ∧
      theta = min (max (if bt then btTheta (psza zen saz tilt az) gcr ct else psza zen saz tilt az) lo) hi ∧
      dirVec stilt saz' = trackerNormal theta tilt az ∧
      cosDeg aoi_ = dot (trackerNormal theta tilt az) (dirVec zen saz) := by
  have hz' : ¬ ((90 : Fl) < fin zen) := by simpa using hz
  set theta := min (max (if bt then btTheta (psza zen saz tilt az) gcr ct else psza zen saz tilt az) lo) hi
    with hth
  obtain ⟨stilt, saz', hso, hn, -⟩ := surfaceOrientation_normal theta tilt az
  obtain ⟨r, hr, -, -, hrc⟩ := aoi_spec stilt saz' zen saz
  refine ⟨theta, r, stilt, saz', ?_, rfl, hn, by rw [hrc, hn]⟩
  have e : clip (if bt then backtrackTheta (fin (psza zen saz tilt az)) (fin gcr) (fin ct)
      else fin (psza zen saz tilt az)) (fin lo) (fin hi) = fin theta := by
    rw [backtrackTheta_fin _ _ _ hg hc, hth]
    cases bt <;> simp
  simp only [singleaxis, hz', if_false, npwhere, projected_fin, MaxAngle.lims, e, hso, hr]

example := singleaxis_day 60 90 0 0 0.3 5 (-45) 60 true (by norm_num) (by norm_num) (cosDeg_ne_of (by norm_num) (by norm_num))

/-! ### C16, continued -/

/-- The backtracked rotation stays in [-180, 180]. -/
theorem btTheta_range (w gcr ct : ℝ) (h1 : -180 ≤ w) (h2 : w ≤ 180) :
    -180 ≤ btTheta w gcr ct ∧ btTheta w gcr ct ≤ 180 := by
  have hpi := Real.pi_pos
  unfold btTheta
  dsimp only
  set x := |1 / (gcr * cosDeg ct) * cosDeg (w - ct)|
  have hx : 0 ≤ x := abs_nonneg _
  have ha : Real.arccos x ≤ π / 2 := Real.arccos_le_pi_div_two.mpr hx
  have ha0 := Real.arccos_nonneg x
  have hb : Real.arccos x * (180 / π) ≤ 90 := by
    rw [mul_div_assoc', div_le_iff₀ hpi]; linarith
  have hb0 : 0 ≤ Real.arccos x * (180 / π) := by positivity
  split_ifs <;> constructor <;> linarith

/-- With backtracking on and no rotation limit, `tracker_theta` is `btTheta` of the projected
solar zenith angle. -/
theorem singleaxis_backtrack (zen saz tilt az gcr ct : ℝ) (hz : zen ≤ 90) (hg : gcr ≠ 0)
    (hc : cosDeg ct ≠ 0) :
    (singleaxis (fin zen) (fin saz) (fin tilt) (fin az) (.scalar 180) true (fin gcr) (fin ct)).tracker_theta
      = fin (btTheta (psza zen saz tilt az) gcr ct) := by
  have hz' : ¬ ((90 : Fl) < fin zen) := by simpa using hz
  have hr := psza_range zen saz tilt az
  have hb := btTheta_range (psza zen saz tilt az) gcr ct hr.1.le hr.2
  simp only [singleaxis, hz', if_false, npwhere, projected_fin, MaxAngle.lims, if_true,
    backtrackTheta_fin _ _ _ hg hc]
  exact clip_id hb.1 hb.2

example := singleaxis_backtrack 60 90 0 0 0.3 5 (by norm_num) (by norm_num) (cosDeg_ne_of (by norm_num) (by norm_num))

/-- Un-clipped shadow length (as a fraction of the collector) of two rows at the same rotation `t`,
sun at projected angle `w`: `1 - (pitch/width) cos(w - ct) / (|cos(t - w)| cos ct)`. -/
theorem tAsterisk_same (w t width pitch ct : ℝ) (hw : width ≠ 0) (hc : cosDeg ct ≠ 0)
    (ht : cosDeg (t - w) ≠ 0) :
    tAsterisk (fin w) (fin t) (fin t) (fin width) (fin pitch) 0 (fin ct) =
      fin (1 - pitch / width * cosDeg (w - ct) / |cosDeg (t - w)| / cosDeg ct) := by
  have h1 : |cosDeg (t - w)| ≠ 0 := abs_ne_zero.mpr ht
  simp only [tAsterisk, fin_sub, cosd_fin, sind_fin, abs_fin, fin_div h1, div_self h1, zero_eq, sign_fin,
    fin_mul, fin_div hw, fin_div hc, ofScientific_eq, ofNat_eq, fin_add, sub_self, mul_zero, add_zero]
  rw [fin_div (by norm_num : (2:ℝ) ≠ 0)]
  simp only [fin_add, fin_sub, fin_inj]
  norm_num

/-- C16(a). Rows of width `width` at spacing `pitch` (`gcr = width/pitch ≤ 1`) on a slope `ct`, sun up
and in front of the slope plane: the rotation returned by `singleaxis(backtrack=True)` has exactly
zero shaded fraction according to `shaded_fraction1d`. -/
theorem backtrack_no_shade (zen saz tilt az width pitch ct : ℝ) (hz : zen ≤ 90) (hw : 0 < width)
    (hp : width ≤ pitch) (hc : 0 < cosDeg ct)
    (hs : 0 < cosDeg (psza zen saz tilt az - ct)) :
    let o := singleaxis (fin zen) (fin saz) (fin tilt) (fin az) (.scalar 180) true
      (fin (width / pitch)) (fin ct)
    shadedFraction1d (fin zen) (fin saz) (fin az) o.tracker_theta (fin width) (fin pitch) (fin tilt) 0
      (fin ct) none = fin 0 := by
  have hp0 : 0 < pitch := by linarith
  have hg : width / pitch ≠ 0 := by positivity
  intro o
  have ho : o.tracker_theta = _ := singleaxis_backtrack zen saz tilt az (width / pitch) ct hz hg hc.ne'
  rw [ho]
  set w := psza zen saz tilt az with hwdef
  have hD : 1 / (width / pitch * cosDeg ct) * cosDeg (w - ct) = pitch / width * cosDeg (w - ct) / cosDeg ct := by
    field_simp
  set D := pitch / width * cosDeg (w - ct) / cosDeg ct with hDdef
  have hD0 : 0 < D := by positivity
  simp only [shadedFraction1d, projected_fin, Option.getD_none, ← hwdef]
  by_cases hlt : D < 1
  · -- backtracking active
    have hw0 : w ≠ 0 := by
      intro h
      have : D = pitch / width := by
        have e : cosDeg (0 - ct) = cosDeg ct := by
          simp only [cosDeg, zero_sub, neg_mul, Real.cos_neg]
        rw [hDdef, h, e, mul_div_assoc, div_self hc.ne', mul_one]
      have h1 : 1 ≤ pitch / width := (one_le_div hw).mpr hp
      linarith
    have hcos : cosDeg (btTheta w (width / pitch) ct - w) = D := by
      have habs : |1 / (width / pitch * cosDeg ct) * cosDeg (w - ct)| = D := by
        rw [hD, abs_of_pos hD0]
      simp only [btTheta, habs, hlt, if_true]
      rcases lt_or_gt_of_ne hw0 with h | h
      · have h' : ¬ (0 < w) := not_lt.mpr h.le
        simp only [h, h', if_true, if_false, cosDeg]
        have : (w - -1 * Real.arccos D * (180 / π) - w) * (π / 180) = Real.arccos D := by
          have := deg_rad (Real.arccos D); linear_combination this
        rw [this, Real.cos_arccos (by linarith) hlt.le]
      · simp only [h, if_true, cosDeg]
        have : (w - 1 * Real.arccos D * (180 / π) - w) * (π / 180) = -Real.arccos D := by
          have := deg_rad (Real.arccos D); linear_combination -this
        rw [this, Real.cos_neg, Real.cos_arccos (by linarith) hlt.le]
    rw [tAsterisk_same w _ width pitch ct hw.ne' hc.ne' (by rw [hcos]; exact hD0.ne')]
    rw [hcos, abs_of_pos hD0]
    have : pitch / width * cosDeg (w - ct) / D / cosDeg ct = 1 := by
      rw [div_right_comm, ← hDdef, div_self hD0.ne']
    rw [this]
    simp
  · have hth : btTheta w (width / pitch) ct = w := by
      simp only [btTheta, hD, abs_of_pos hD0, hlt, if_false]
    have hcos : cosDeg (btTheta w (width / pitch) ct - w) = 1 := by rw [hth, sub_self]; simp [cosDeg]
    rw [tAsterisk_same w _ width pitch ct hw.ne' hc.ne' (by rw [hcos]; norm_num)]
    rw [hcos, abs_one, div_one, ← hDdef]
    have : 1 - D ≤ 0 := by linarith
    simp [this]

example := backtrack_no_shade 80 90 0 0 1 2 0 (by norm_num) (by norm_num) (by norm_num) (cosDeg_pos_of (by norm_num) (by norm_num))
  (by rw [psza_east 80 (by norm_num) (by norm_num)]; exact cosDeg_pos_of (by norm_num) (by norm_num))

/-- C16(b). Backtracking is not more than necessary: when it acts, every rotation closer to the ideal
one (true tracking included) is partly shaded. -/
theorem backtrack_tight (zen saz tilt az width pitch ct t : ℝ) (hw : 0 < width)
    (hp : width ≤ pitch) (hc : 0 < cosDeg ct)
    (hs : 0 < cosDeg (psza zen saz tilt az - ct))
    (ht : |t - psza zen saz tilt az| <
      |btTheta (psza zen saz tilt az) (width / pitch) ct - psza zen saz tilt az|) :
    ∃ r, shadedFraction1d (fin zen) (fin saz) (fin az) (fin t) (fin width) (fin pitch) (fin tilt) 0
      (fin ct) none = fin r ∧ 0 < r := by
  have hpi := Real.pi_pos
  have hp0 : 0 < pitch := by linarith
  set w := psza zen saz tilt az with hwdef
  have hD : 1 / (width / pitch * cosDeg ct) * cosDeg (w - ct) = pitch / width * cosDeg (w - ct) / cosDeg ct := by
    field_simp
  set D := pitch / width * cosDeg (w - ct) / cosDeg ct with hDdef
  have hD0 : 0 < D := by positivity
  by_cases hlt : D < 1
  · have hle : |btTheta w (width / pitch) ct - w| ≤ Real.arccos D * (180 / π) := by
      have hnn : 0 ≤ Real.arccos D * (180 / π) := by have := Real.arccos_nonneg D; positivity
      simp only [btTheta, hD, abs_of_pos hD0, hlt, if_true]
      split_ifs
      · rw [abs_le]; constructor <;> linarith
      · rw [abs_le]; constructor <;> linarith
      · simp [hnn]
    have hlt2 : |t - w| * (π / 180) < Real.arccos D := by
      have : |t - w| < Real.arccos D * (180 / π) := lt_of_lt_of_le ht hle
      have := mul_lt_mul_of_pos_right this (by positivity : (0:ℝ) < π / 180)
      rwa [deg_rad] at this
    have hcosgt : D < cosDeg (t - w) := by
      have h1 : Real.cos (Real.arccos D) < Real.cos (|t - w| * (π / 180)) :=
        Real.cos_lt_cos_of_nonneg_of_le_pi (by positivity) (Real.arccos_le_pi D) hlt2
      rw [Real.cos_arccos (by linarith) hlt.le] at h1
      have h2 : |t - w| * (π / 180) = |(t - w) * (π / 180)| := by
        rw [abs_mul, abs_of_pos (by positivity : (0:ℝ) < π / 180)]
      rw [h2, Real.cos_abs] at h1
      exact h1
    have hcpos : 0 < cosDeg (t - w) := by linarith
    simp only [shadedFraction1d, projected_fin, Option.getD_none, ← hwdef]
    rw [tAsterisk_same w t width pitch ct hw.ne' hc.ne' hcpos.ne']
    rw [abs_of_pos hcpos]
    have e : pitch / width * cosDeg (w - ct) / cosDeg (t - w) / cosDeg ct = D / cosDeg (t - w) := by
      rw [div_right_comm]
    have hlt3 : D / cosDeg (t - w) < 1 := (div_lt_one hcpos).mpr hcosgt
    refine ⟨_, by simp only [zero_eq, one_eq, clip_fin]; rfl, ?_⟩
    rw [e]
    exact lt_min (lt_max_of_lt_left (by linarith)) (by norm_num)
  · exfalso
    simp only [btTheta, hD, abs_of_pos hD0, hlt, if_false, sub_self, abs_zero] at ht
    exact absurd ht (not_lt.mpr (abs_nonneg _))

example := backtrack_tight 80 90 0 0 1 2 0 80 (by norm_num) (by norm_num) (cosDeg_pos_of (by norm_num) (by norm_num))
  (by rw [psza_east 80 (by norm_num) (by norm_num)]; exact cosDeg_pos_of (by norm_num) (by norm_num))
  (by
    rw [psza_east 80 (by norm_num) (by norm_num), sub_self, abs_zero, abs_pos]
    have hp : 0 < cosDeg (80 - 0) := cosDeg_pos_of (by norm_num) (by norm_num)
    have hlt : cosDeg (80 - 0) < 1 / 2 := by
      rw [← cosDeg_at60]
      exact Real.cos_lt_cos_of_nonneg_of_le_pi (by nlinarith [Real.pi_pos]) (by nlinarith [Real.pi_pos])
        (by nlinarith [Real.pi_pos])
    have ht : |1 / (1 / 2 * cosDeg 0) * cosDeg (80 - 0)| < 1 := by
      rw [cosDeg_at0, abs_of_pos (by positivity)]; linarith
    simp only [btTheta, if_pos ht]
    have h2 : 0 < Real.arccos |1 / (1 / 2 * cosDeg 0) * cosDeg (80 - 0)| := Real.arccos_pos.2 ht
    have : 0 < Real.arccos |1 / (1 / 2 * cosDeg 0) * cosDeg (80 - 0)| * (180 / π) := mul_pos h2 (div_pos (by norm_num) Real.pi_pos)
    rw [if_pos (by norm_num), one_mul]
    linarith)

/-- C16(c). On level ground backtracking rotates towards horizontal, never past it. -/
theorem backtrack_towards_horizontal (w gcr : ℝ) (hg : 0 < gcr) (hg1 : gcr ≤ 1) (hw : -90 ≤ w) (hw' : w ≤ 90) :
    (0 ≤ w → 0 ≤ btTheta w gcr 0 ∧ btTheta w gcr 0 ≤ w) ∧
    (w ≤ 0 → w ≤ btTheta w gcr 0 ∧ btTheta w gcr 0 ≤ 0) := by
  have hpi := Real.pi_pos
  have hc : 0 ≤ cosDeg w := by
    apply Real.cos_nonneg_of_mem_Icc
    constructor <;> nlinarith
  have hone : 1 ≤ 1 / gcr := (one_le_div hg).mpr hg1
  have htemp : |1 / (gcr * cosDeg 0) * cosDeg (w - 0)| = 1 / gcr * cosDeg w := by
    rw [sub_zero]; simp only [cosDeg, zero_mul, Real.cos_zero, mul_one]
    exact abs_of_nonneg (by positivity)
  have hle : Real.arccos (1 / gcr * cosDeg w) ≤ |w| * (π / 180) := by
    have h1 : Real.arccos (1 / gcr * cosDeg w) ≤ Real.arccos (cosDeg w) :=
      Real.arccos_le_arccos (by nlinarith)
    have h2 : cosDeg w = Real.cos (|w| * (π / 180)) := by
      rw [cosDeg, ← Real.cos_abs (w * (π / 180)), abs_mul, abs_of_pos (by positivity : (0:ℝ) < π / 180)]
    rw [h2, Real.arccos_cos (by positivity) (by nlinarith [abs_le.mpr ⟨hw, hw'⟩])] at h1
    rwa [h2]
  have hdeg : Real.arccos (1 / gcr * cosDeg w) * (180 / π) ≤ |w| := by
    have := mul_le_mul_of_nonneg_right hle (by positivity : (0:ℝ) ≤ 180 / π)
    have e : |w| * (π / 180) * (180 / π) = |w| := by field_simp
    rwa [e] at this
  have h0 : 0 ≤ Real.arccos (1 / gcr * cosDeg w) * (180 / π) := by
    have := Real.arccos_nonneg (1 / gcr * cosDeg w); positivity
  simp only [btTheta, htemp]
  constructor
  · intro h
    rw [abs_of_nonneg h] at hdeg
    split_ifs with h1 h2 h3 <;> constructor <;> linarith
  · intro h
    rw [abs_of_nonpos h] at hdeg
    split_ifs with h1 h2 h3 <;> constructor <;> linarith

/-- The hypotheses of C16 are met: sun at zenith 80 in the east, north-south axis, flat ground,
gcr 0.5. -/
example : 0 < cosDeg (psza 80 90 0 0 - 0) ∧ 0 < cosDeg 0 := by
  have h90 : (90 : ℝ) * (π / 180) = π / 2 := by ring
  have h91 : (0 + 90 : ℝ) * (π / 180) = π / 2 := by ring
  have hpi := Real.pi_pos
  have hn : sunNormal 80 90 0 0 = cosDeg 80 := by
    simp [sunNormal, dot, dirVec, cosDeg, sinDeg]
  have hpos : 0 < cosDeg 80 := Real.cos_pos_of_mem_Ioo ⟨by nlinarith, by nlinarith⟩
  refine ⟨?_, by simp [cosDeg]⟩
  rw [sub_zero, cosDeg, psza, deg_rad]
  rw [Complex.cos_arg]
  · apply div_pos
    · show 0 < sunNormal 80 90 0 0
      rw [hn]; exact hpos
    · rw [norm_pos_iff]
      intro h
      have := congrArg Complex.re h
      simp [hn] at this
      exact hpos.ne' this
  · intro h
    have := congrArg Complex.re h
    simp [hn] at this
    exact hpos.ne' this

/-! ## C41: trackers on sloped ground -/

/-- C41(a). `calc_axis_tilt` returns the tilt for which the tracker axis lies in the sloped ground
plane (perpendicular to its normal). -/
theorem axisTilt_in_slope (slopeAz slopeTilt axisAz : ℝ) (h : cosDeg slopeTilt ≠ 0) :
    ∃ b, calcAxisTilt (fin slopeAz) (fin slopeTilt) (fin axisAz) = fin b ∧ -90 < b ∧ b < 90 ∧
      dot (axisVec b axisAz) (dirVec slopeTilt slopeAz) = 0 := by
  have hpi := Real.pi_pos
  set x := cosDeg (axisAz - slopeAz) * Real.tan (slopeTilt * (π / 180)) with hx
  refine ⟨Real.arctan x * (180 / π), ?_, ?_, ?_, ?_⟩
  · simp only [calcAxisTilt, fin_sub, cosd_fin, tand_fin h, fin_mul, arctan_fin, degrees_fin, hx]
  · have := Real.neg_pi_div_two_lt_arctan x
    rw [mul_div_assoc', lt_div_iff₀ hpi]; linarith
  · have := Real.arctan_lt_pi_div_two x
    rw [mul_div_assoc', div_lt_iff₀ hpi]; linarith
  · have h2 : (90 + Real.arctan x * (180 / π)) * (π / 180) = Real.arctan x + π / 2 := by
      have := deg_rad (Real.arctan x); linear_combination this
    have hcpos := Real.cos_arctan_pos x
    have htan : Real.sin (Real.arctan x) = x * Real.cos (Real.arctan x) := by
      conv_rhs => rw [← Real.tan_arctan x]
      rw [Real.arctan_tan (Real.neg_pi_div_two_lt_arctan x) (Real.arctan_lt_pi_div_two x),
        Real.tan_mul_cos hcpos.ne']
    have hs : Real.sin (slopeTilt * (π / 180)) =
        Real.tan (slopeTilt * (π / 180)) * Real.cos (slopeTilt * (π / 180)) := (Real.tan_mul_cos h).symm
    simp only [dot, axisVec, dirVec, sinDeg, cosDeg, h2, Real.sin_add_pi_div_two, Real.cos_add_pi_div_two]
    rw [htan]
    have hcs : cosDeg (axisAz - slopeAz) = Real.cos (axisAz * (π / 180)) * Real.cos (slopeAz * (π / 180)) +
        Real.sin (axisAz * (π / 180)) * Real.sin (slopeAz * (π / 180)) := by
      rw [cosDeg, sub_mul, Real.cos_sub]
    rw [hx, hcs, hs]
    ring

example := axisTilt_in_slope 180 10 135 (cosDeg_ne_of (by norm_num) (by norm_num))

/-- C41(b). `calc_cross_axis_tilt`: when the axis lies in the sloped plane, a tracker rotated by exactly
the returned angle is parallel to the ground (its normal is the slope's normal). -/
theorem crossAxisTilt_parallel (slopeAz slopeTilt axisAz axisTilt : ℝ)
    (hs : 0 < cosDeg slopeTilt) (ha : 0 < cosDeg axisTilt)
    (hin : dot (axisVec axisTilt axisAz) (dirVec slopeTilt slopeAz) = 0) :
    ∃ c, calcCrossAxisTilt (fin slopeAz) (fin slopeTilt) (fin axisAz) (fin axisTilt) = fin c ∧
      -90 ≤ c ∧ c ≤ 90 ∧
      trackerNormal c axisTilt axisAz = dirVec slopeTilt slopeAz := by
  have hpi := Real.pi_pos
  have hsub : cosDeg (axisAz - slopeAz) = Real.cos (axisAz * (π / 180)) * Real.cos (slopeAz * (π / 180)) +
        Real.sin (axisAz * (π / 180)) * Real.sin (slopeAz * (π / 180)) := by
    rw [cosDeg, sub_mul, Real.cos_sub]
  have hsub' : sinDeg (axisAz - slopeAz) = Real.sin (axisAz * (π / 180)) * Real.cos (slopeAz * (π / 180)) -
        Real.cos (axisAz * (π / 180)) * Real.sin (slopeAz * (π / 180)) := by
    rw [sinDeg, sub_mul, Real.sin_sub]
  have h90 : (90 + axisTilt) * (π / 180) = axisTilt * (π / 180) + π / 2 := by ring
  simp only [dot, axisVec, dirVec, sinDeg, cosDeg, h90, Real.sin_add_pi_div_two,
    Real.cos_add_pi_div_two] at hin
  have hA := Real.sin_sq_add_cos_sq (axisAz * (π / 180))
  have hS := Real.sin_sq_add_cos_sq (slopeAz * (π / 180))
  have hB := Real.sin_sq_add_cos_sq (axisTilt * (π / 180))
  have hG := Real.sin_sq_add_cos_sq (slopeTilt * (π / 180))
  have hdg := Real.sin_sq_add_cos_sq ((axisAz - slopeAz) * (π / 180))
  simp only [cosDeg] at hs ha
  simp only [cosDeg, sinDeg] at hsub hsub'
  set sA := Real.sin (axisAz * (π / 180))
  set cA := Real.cos (axisAz * (π / 180))
  set sS := Real.sin (slopeAz * (π / 180))
  set cS := Real.cos (slopeAz * (π / 180))
  set sB := Real.sin (axisTilt * (π / 180))
  set cB := Real.cos (axisTilt * (π / 180))
  set sG := Real.sin (slopeTilt * (π / 180))
  set cG := Real.cos (slopeTilt * (π / 180))
  set sD := Real.sin ((axisAz - slopeAz) * (π / 180))
  set cD := Real.cos ((axisAz - slopeAz) * (π / 180))
  -- the axis lies in the slope: sB cG = cB sG cD
  have hin' : sB * cG = cB * sG * cD := by rw [hsub]; linear_combination -hin
  -- the un-normalised vector has unit length
  have hv : (sD * cB * cG) * (sD * cB * cG) + (sB * sG + cD * cB * cG) * (sB * sG + cD * cB * cG) +
      (-sD * sG * cB) * (-sD * sG * cB) = 1 := by
    have h1 : (sB * sG + cD * cB * cG) * cG = cB * cD := by
      linear_combination sG * hin' + cB * cD * hG
    have h2 : cG ^ 2 * ((sD * cB * cG) * (sD * cB * cG) + (sB * sG + cD * cB * cG) * (sB * sG + cD * cB * cG) +
      (-sD * sG * cB) * (-sD * sG * cB)) = cG ^ 2 * 1 := by
      have e : ((sB * sG + cD * cB * cG) * cG) ^ 2 = (cB * cD) ^ 2 := by rw [h1]
      have e2 : (sB * cG) ^ 2 = (cB * sG * cD) ^ 2 := by rw [hin']
      linear_combination e + sD ^ 2 * cB ^ 2 * cG ^ 2 * hG - e2 - cB ^ 2 * cD ^ 2 * hG + cB ^ 2 * cG ^ 2 * hdg
        + cG ^ 2 * hB
    exact mul_left_cancel₀ (pow_ne_zero 2 hs.ne') h2
  have hval : ((sD * cB * cG) * cD - (sB * sG + cD * cB * cG) * sD) * sB + (-sD * sG * cB) * cB = -(sD * sG) := by
    linear_combination (-(sD * sG)) * hB
  have hb1 : -1 ≤ -(sD * sG) ∧ -(sD * sG) ≤ 1 := by
    constructor <;> nlinarith [sq_nonneg (sD - sG), sq_nonneg (sD + sG), sq_nonneg cD, sq_nonneg cG]
  set c0 := Real.arcsin (-(sD * sG)) with hc0
  refine ⟨c0 * (180 / π), ?_, ?_, ?_, ?_⟩
  · simp only [calcCrossAxisTilt, calcTrackerNorm, calcBetaC, fin_sub, cosd_fin, sind_fin, fin_mul, fin_add,
      neg_fin]
    rw [hv, sqrt_fin (by norm_num : (0:ℝ) ≤ 1), Real.sqrt_one, fin_div (by norm_num : (1:ℝ) ≠ 0), div_one, hval,
      arcsin_fin hb1.1 hb1.2, degrees_fin]
  · have := Real.neg_pi_div_two_le_arcsin (-(sD * sG))
    rw [mul_div_assoc', le_div_iff₀ hpi]; linarith
  · have := Real.arcsin_le_pi_div_two (-(sD * sG))
    rw [mul_div_assoc', div_le_iff₀ hpi]; linarith
  · have hsin : Real.sin c0 = -(sD * sG) := Real.sin_arcsin hb1.1 hb1.2
    have hcos0 : 0 ≤ Real.cos c0 := Real.cos_arcsin_nonneg _
    have hN : 0 ≤ sG * sB * cD + cG * cB := by
      have : (sG * sB * cD + cG * cB) * cG = cB * (sG ^ 2 * cD ^ 2 + cG ^ 2) := by
        linear_combination sG * cD * hin'
      have h3 : 0 ≤ cB * (sG ^ 2 * cD ^ 2 + cG ^ 2) := by positivity
      by_contra hc
      rw [not_le] at hc
      have := mul_neg_of_neg_of_pos hc hs
      linarith
    have hcos : Real.cos c0 = sG * sB * cD + cG * cB := by
      have hsq : Real.cos c0 ^ 2 = (sG * sB * cD + cG * cB) ^ 2 := by
        have h1 := Real.sin_sq_add_cos_sq c0
        rw [hsin] at h1
        have e2 : (sB * cG - cB * sG * cD) ^ 2 = 0 := by rw [hin']; ring
        linear_combination h1 + e2 - hG - (sG ^ 2 * cD ^ 2 + cG ^ 2) * hB - sG ^ 2 * hdg
      exact (sq_eq_sq₀ hcos0 hN).mp hsq
    simp only [trackerNormal, right_eq]
    apply Vec.ext'
    · simp only [dirVec, cosDeg, sinDeg, deg_rad, hsin, hcos]
      show (sG * sB * cD + cG * cB) * (sB * sA) + -(sD * sG) * cA = sG * sS
      have e1 : (sG * sB * cD + cG * cB) * sB = sG * cD := by
        linear_combination cB * hin' + sG * cD * hB
      rw [← mul_assoc, e1]
      rw [hsub, hsub']
      linear_combination sG * sS * hA
    · simp only [dirVec, cosDeg, sinDeg, deg_rad, hsin, hcos]
      show (sG * sB * cD + cG * cB) * (sB * cA) + -(sD * sG) * (-sA) = sG * cS
      have e1 : (sG * sB * cD + cG * cB) * sB = sG * cD := by
        linear_combination cB * hin' + sG * cD * hB
      rw [← mul_assoc, e1]
      rw [hsub, hsub']
      linear_combination sG * cS * hA
    · simp only [dirVec, cosDeg, sinDeg, deg_rad, hsin, hcos]
      show (sG * sB * cD + cG * cB) * cB + -(sD * sG) * 0 = cG
      linear_combination (-sB) * hin' + cG * hB

example := crossAxisTilt_parallel 180 10 90 0 (cosDeg_pos_of (by norm_num) (by norm_num)) (cosDeg_pos_of (by norm_num) (by norm_num))
  (by simp [dot, axisVec, dirVec, sinDeg_at90, cosDeg_at90, sinDeg_at180])

/-- C41(c). Composition: for every slope less steep than vertical and every axis azimuth, feeding the
result of `calc_axis_tilt` into `calc_cross_axis_tilt` gives a rotation parallel to the ground. -/
theorem slope_tracker_parallel (slopeAz slopeTilt axisAz : ℝ) (hs : 0 < cosDeg slopeTilt) :
    ∃ b c, calcAxisTilt (fin slopeAz) (fin slopeTilt) (fin axisAz) = fin b ∧
      calcCrossAxisTilt (fin slopeAz) (fin slopeTilt) (fin axisAz) (fin b) = fin c ∧
      trackerNormal c b axisAz = dirVec slopeTilt slopeAz := by
  obtain ⟨b, hb, h1, h2, hin⟩ := axisTilt_in_slope slopeAz slopeTilt axisAz hs.ne'
  have hpi := Real.pi_pos
  have hcb : 0 < cosDeg b := Real.cos_pos_of_mem_Ioo ⟨by nlinarith, by nlinarith⟩
  obtain ⟨c, hc, -, -, hn⟩ := crossAxisTilt_parallel slopeAz slopeTilt axisAz b hs hcb hin
  exact ⟨b, c, hb, hc, hn⟩

example : 0 < cosDeg 10 := Real.cos_pos_of_mem_Ioo ⟨by nlinarith [Real.pi_pos], by nlinarith [Real.pi_pos]⟩

end Pvlib.Props.Tracking
end
