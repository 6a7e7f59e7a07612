import Verif.Props.TrigValues
import Verif.Props.Tracking
import Mathlib.Analysis.SpecialFunctions.Integrals.Basic
import Mathlib.MeasureTheory.Integral.IntervalIntegral.FundThmCalculus

/-!
# Shading losses and masking angles (C30, C31)
-/

noncomputable section
open scoped Classical
open Real
namespace Pvlib.Props.Shading
open Fl Pvlib.Tools Pvlib.Shading Pvlib.Spec Pvlib.Props.Tracking

/-! ## C30 -/

/-- C30(a). The shaded fraction is NaN or in [0, 1], for every input. -/
theorem shadedFraction_range (zen saz az t w p tilt off ct : Fl) (t' : Option Fl) :
    NanOr (shadedFraction1d zen saz az t w p tilt off ct t') (fun r => 0 ≤ r ∧ r ≤ 1) := by
  unfold shadedFraction1d; dsimp only; rw [zero_eq, one_eq]
  exact clip_range _ (by norm_num)

/-- C30(b). `direct_martinez` for real inputs: the lost fraction of plane-of-array irradiance is
`(poa_direct/poa_global) (1 - (1 - shaded_fraction)(1 - ceil(blocks)/(1 + total)))`. -/
theorem martinez_value (G D s n N : ℝ) (hG : G ≠ 0) (hN : 1 + N ≠ 0) :
    directMartinez (fin G) (fin D) (fin s) (fin n) (fin N) =
      fin (D / G * (1 - (1 - s) * (1 - ⌈n⌉ / (1 + N)))) := by
  simp only [directMartinez, one_eq, fin_sub, ceil_fin, fin_add, fin_div hN, fin_mul, fin_div hG, fin_inj]
  field_simp
  ring

example := martinez_value 800 600 0.2 3.4 8 (by norm_num) (by norm_num)

/-- C30(c). The loss is a fraction: between 0 and the direct share of the irradiance. -/
theorem martinez_range (G D s n N : ℝ) (hG : 0 < G) (hD : 0 ≤ D) (hDG : D ≤ G) (hs : 0 ≤ s) (hs1 : s ≤ 1)
    (hn : 0 ≤ n) (hnN : n ≤ N) :
    ∃ r, directMartinez (fin G) (fin D) (fin s) (fin n) (fin N) = fin r ∧ 0 ≤ r ∧ r ≤ D / G ∧ r ≤ 1 := by
  have hN : 0 < 1 + N := by linarith
  refine ⟨_, martinez_value G D s n N hG.ne' hN.ne', ?_⟩
  have hc0 : (0 : ℝ) ≤ ⌈n⌉ := by exact_mod_cast Int.ceil_nonneg hn
  have hc1 : (⌈n⌉ : ℝ) / (1 + N) ≤ 1 := by
    rw [div_le_one hN]; have := Int.ceil_lt_add_one n; linarith
  have hc2 : 0 ≤ (⌈n⌉ : ℝ) / (1 + N) := by positivity
  have hb0 : 0 ≤ (1 - s) * (1 - ⌈n⌉ / (1 + N)) := mul_nonneg (by linarith) (by linarith)
  have hb1 : (1 - s) * (1 - ⌈n⌉ / (1 + N)) ≤ 1 := by
    have := mul_le_mul (by linarith : 1 - s ≤ 1) (by linarith : 1 - (⌈n⌉ : ℝ) / (1 + N) ≤ 1) (by linarith) (by norm_num)
    linarith
  have hq : 0 ≤ D / G := by positivity
  have hq1 : D / G ≤ 1 := (div_le_one hG).mpr hDG
  refine ⟨mul_nonneg hq (by linarith), by nlinarith, by nlinarith⟩

example : (0 : ℝ) < 1000 ∧ (0:ℝ) ≤ 800 ∧ (800:ℝ) ≤ 1000 ∧ (0:ℝ) ≤ 0.5 ∧ (0.5:ℝ) ≤ 1 ∧ (0:ℝ) ≤ 2 ∧ (2:ℝ) ≤ 3 := by
  norm_num

/-- C30(d). No shade, no loss. -/
theorem martinez_unshaded (G D N : ℝ) (hG : G ≠ 0) (hN : 1 + N ≠ 0) :
    directMartinez (fin G) (fin D) 0 0 (fin N) = fin 0 := by
  rw [zero_eq, martinez_value _ _ _ _ _ hG hN]; simp

example := martinez_unshaded 800 600 8 (by norm_num) (by norm_num)

/-- C30(e). More shade, no smaller loss: monotone in the shaded fraction and in the number of
shaded blocks. -/
theorem martinez_mono (G D s s' n n' N : ℝ) (hG : 0 < G) (hD : 0 ≤ D) (hs : s ≤ s') (hs1 : s' ≤ 1)
    (hn : n ≤ n') (hn' : 0 ≤ n) (hnN : n' ≤ N) :
    directMartinez (fin G) (fin D) (fin s) (fin n) (fin N) ≤
      directMartinez (fin G) (fin D) (fin s') (fin n') (fin N) := by
  have hN : 0 < 1 + N := by linarith
  rw [martinez_value _ _ _ _ _ hG.ne' hN.ne', martinez_value _ _ _ _ _ hG.ne' hN.ne', fin_le]
  have hq : 0 ≤ D / G := by positivity
  apply mul_le_mul_of_nonneg_left _ hq
  have hc : (⌈n⌉ : ℝ) / (1 + N) ≤ ⌈n'⌉ / (1 + N) :=
    div_le_div_of_nonneg_right (by exact_mod_cast Int.ceil_le_ceil hn) hN.le
  have hc1 : (⌈n'⌉ : ℝ) / (1 + N) ≤ 1 := by
    rw [div_le_one hN]; have := Int.ceil_lt_add_one n'; linarith
  have : (1 - s') * (1 - ⌈n'⌉ / (1 + N)) ≤ (1 - s) * (1 - ⌈n⌉ / (1 + N)) :=
    mul_le_mul (by linarith) (by linarith) (by linarith) (by linarith)
  linarith

example := martinez_mono 800 600 0.2 0.4 2 3 8 (by norm_num) (by norm_num) (by norm_num) (by norm_num) (by norm_num) (by norm_num)
  (by norm_num)

/-- Code fact: at night (`poa_global = poa_direct = 0`) the result is NaN, not 0. -/
theorem martinez_night (s n N : ℝ) (hN : 1 + N ≠ 0) :
    directMartinez 0 0 (fin s) (fin n) (fin N) = nan := by
  simp [directMartinez, hN, fin_div_zero]

example := martinez_night 0.2 2 8 (by norm_num)

/-! ## C31 -/

/-- The elevation angle in degrees of the line of sight with horizontal run `run > 0` and rise `rise`:
the specification of both angles. -/
def IsElevation (deg run rise : ℝ) : Prop :=
  -90 < deg ∧ deg < 90 ∧ Real.tan (deg * (π / 180)) = rise / run

theorem isElevation_arctan (run rise : ℝ) : IsElevation (Real.arctan (rise / run) * (180 / π)) run rise := by
  have hpi := Real.pi_pos
  refine ⟨?_, ?_, ?_⟩
  · have := Real.neg_pi_div_two_lt_arctan (rise / run)
    rw [mul_div_assoc', lt_div_iff₀ hpi]; linarith
  · have := Real.arctan_lt_pi_div_two (rise / run)
    rw [mul_div_assoc', div_lt_iff₀ hpi]; linarith
  · rw [deg_rad, Real.tan_arctan]

/-- Geometry (pitch 1, row width `gcr`): position of the point at relative height `x` on the row. -/
def rowPoint (tilt gcr x : ℝ) : ℝ × ℝ := (gcr * x * cosDeg tilt, gcr * x * sinDeg tilt)
/-- Top edge of the row in front (one pitch ahead). -/
def frontTop (tilt gcr : ℝ) : ℝ × ℝ := (gcr * cosDeg tilt - 1, gcr * sinDeg tilt)
/-- Bottom edge of the row in front. -/
def frontBottom : ℝ × ℝ := (-1, 0)

theorem run_pos (tilt gcr u : ℝ) (hg : 0 ≤ gcr) (hg1 : gcr < 1) (hu : 0 ≤ u) (hu1 : u ≤ 1) :
    0 < 1 - gcr * u * cosDeg tilt := by
  have h1 : gcr * u < 1 := by nlinarith
  have h0 : 0 ≤ gcr * u := by positivity
  nlinarith [Real.cos_le_one (tilt * (π / 180))]

/-- C31(a). `masking_angle` is the elevation angle of the line of sight from the point at `slant_height`
to the top edge of the row in front. -/
theorem maskingAngle_spec (tilt gcr x : ℝ) (hg : 0 ≤ gcr) (hg1 : gcr < 1) (hx : 0 ≤ x) (hx1 : x ≤ 1) :
    ∃ d, maskingAngle (fin tilt) (fin gcr) (fin x) = fin d ∧
      IsElevation d ((rowPoint tilt gcr x).1 - (frontTop tilt gcr).1)
        ((frontTop tilt gcr).2 - (rowPoint tilt gcr x).2) ∧
      0 < (rowPoint tilt gcr x).1 - (frontTop tilt gcr).1 := by
  have hr := run_pos tilt gcr (1 - x) hg hg1 (by linarith) (by linarith)
  have e1 : (rowPoint tilt gcr x).1 - (frontTop tilt gcr).1 = 1 - gcr * (1 - x) * cosDeg tilt := by
    simp only [rowPoint, frontTop]; ring
  have e2 : (frontTop tilt gcr).2 - (rowPoint tilt gcr x).2 = gcr * (1 - x) * sinDeg tilt := by
    simp only [rowPoint, frontTop]; ring
  rw [e1, e2]
  refine ⟨_, ?_, isElevation_arctan _ _, hr⟩
  simp only [maskingAngle, one_eq, fin_sub, fin_mul, sind_fin, cosd_fin, fin_div hr.ne', arctan_fin,
    degrees_fin]

example := maskingAngle_spec 30 0.5 0.2 (by norm_num) (by norm_num) (by norm_num) (by norm_num)

/-- C31(b). It is zero at the top edge, and lower points see a larger masking angle. -/
theorem maskingAngle_top (tilt gcr : ℝ) : maskingAngle (fin tilt) (fin gcr) 1 = fin 0 := by
  simp [maskingAngle]

theorem maskingAngle_antitone (tilt gcr x y : ℝ) (hg : 0 ≤ gcr) (hg1 : gcr < 1) (ht : 0 ≤ tilt) (ht1 : tilt ≤ 90)
    (hx : 0 ≤ x) (hxy : x ≤ y) (hy : y ≤ 1) :
    maskingAngle (fin tilt) (fin gcr) (fin y) ≤ maskingAngle (fin tilt) (fin gcr) (fin x) := by
  have hpi := Real.pi_pos
  have hrx := run_pos tilt gcr (1 - x) hg hg1 (by linarith) (by linarith)
  have hry := run_pos tilt gcr (1 - y) hg hg1 (by linarith) (by linarith)
  have hs : 0 ≤ sinDeg tilt := Real.sin_nonneg_of_nonneg_of_le_pi (by positivity) (by nlinarith)
  have hc : 0 ≤ cosDeg tilt := Real.cos_nonneg_of_mem_Icc ⟨by nlinarith, by nlinarith⟩
  simp only [maskingAngle, one_eq, fin_sub, fin_mul, sind_fin, cosd_fin, fin_div hrx.ne', fin_div hry.ne',
    arctan_fin, degrees_fin, fin_le]
  apply mul_le_mul_of_nonneg_right _ (by positivity)
  apply Real.arctan_mono
  have h1 : gcr * (1 - y) ≤ gcr * (1 - x) := mul_le_mul_of_nonneg_left (by linarith) hg
  have h0 : 0 ≤ gcr * (1 - y) := mul_nonneg hg (by linarith)
  apply div_le_div₀
  · exact mul_nonneg (by linarith) hs
  · exact mul_le_mul_of_nonneg_right h1 hs
  · exact hrx
  · have := mul_le_mul_of_nonneg_right h1 hc; linarith

example := maskingAngle_antitone 30 0.5 0.2 0.7 (by norm_num) (by norm_num) (by norm_num) (by norm_num) (by norm_num) (by norm_num)
  (by norm_num)

/-- C31(c). `ground_angle` is the elevation angle of the point at `slant_height` seen from the bottom edge
of the row in front. -/
theorem groundAngle_spec (tilt gcr x : ℝ) (hr : 0 < gcr * x * cosDeg tilt + 1) :
    ∃ d, groundAngle (fin tilt) (fin gcr) (fin x) = fin d ∧
      IsElevation d ((rowPoint tilt gcr x).1 - frontBottom.1) ((rowPoint tilt gcr x).2 - frontBottom.2) := by
  have e1 : (rowPoint tilt gcr x).1 - frontBottom.1 = gcr * x * cosDeg tilt + 1 := by
    simp [rowPoint, frontBottom]
  have e2 : (rowPoint tilt gcr x).2 - frontBottom.2 = gcr * x * sinDeg tilt := by
    simp [rowPoint, frontBottom]
  rw [e1, e2]
  refine ⟨_, ?_, isElevation_arctan _ _⟩
  simp only [groundAngle, one_eq, fin_mul, sind_fin, cosd_fin, fin_add, arctan2_fin, degrees_fin, fin_inj]
  congr 1
  rw [Complex.arg_of_re_nonneg (by exact hr.le)]
  rw [Real.arctan_eq_arcsin]
  congr 1
  set u := gcr * x * sinDeg tilt with hu
  set v := gcr * x * cosDeg tilt + 1 with hv
  have hn : ‖(⟨v, u⟩ : ℂ)‖ = v * Real.sqrt (1 + (u / v) ^ 2) := by
    rw [Complex.norm_def, Complex.normSq_mk]
    have : v * v + u * u = v ^ 2 * (1 + (u / v) ^ 2) := by field_simp
    rw [this, Real.sqrt_mul (sq_nonneg v), Real.sqrt_sq hr.le]
  have hnn : v * Real.sqrt (1 + (u / v) ^ 2) ≠ 0 := by positivity
  show u / ‖(⟨v, u⟩ : ℂ)‖ = _
  rw [hn, div_div]

example := groundAngle_spec 30 0.5 0.2 (by nlinarith [cosDeg_pos_of (x := 30) (by norm_num) (by norm_num)])

/-- C31(d). `sky_diffuse_passias` is `sin²(angle/2)`: 0 without masking, at most 1/2 up to 90 degrees, and
increasing there. -/
theorem passias_value (a : ℝ) : skyDiffusePassias (fin a) = fin (sinDeg (a / 2) ^ 2) := by
  have h := Real.sin_sq_add_cos_sq (a / 2 * (π / 180))
  simp only [skyDiffusePassias, ofNat_eq, fin_div (by norm_num : (2:ℝ) ≠ 0), cosd_fin, fin_pow, one_eq, fin_sub,
    fin_inj, sinDeg]
  linarith

theorem passias_range (a : ℝ) (h0 : 0 ≤ a) (h1 : a ≤ 90) :
    ∃ r, skyDiffusePassias (fin a) = fin r ∧ 0 ≤ r ∧ r ≤ 1 / 2 ∧ (r = 0 ↔ a = 0) := by
  have hpi := Real.pi_pos
  refine ⟨_, passias_value a, by positivity, ?_, ?_⟩
  · have hc := Real.cos_sq' (a / 2 * (π / 180))
    have h2 := Real.cos_two_mul (a / 2 * (π / 180))
    have h3 : 0 ≤ Real.cos (2 * (a / 2 * (π / 180))) :=
      Real.cos_nonneg_of_mem_Icc ⟨by nlinarith, by nlinarith⟩
    simp only [sinDeg]; nlinarith
  · constructor
    · intro h
      by_contra hne
      have hpos : 0 < a := lt_of_le_of_ne h0 (Ne.symm hne)
      have : 0 < sinDeg (a / 2) := Real.sin_pos_of_pos_of_lt_pi (by positivity) (by nlinarith)
      have := pow_pos this 2
      linarith
    · rintro rfl; simp [sinDeg]

example := passias_range 20 (by norm_num) (by norm_num)

theorem passias_mono (a b : ℝ) (h0 : 0 ≤ a) (hab : a ≤ b) (h1 : b ≤ 180) :
    skyDiffusePassias (fin a) ≤ skyDiffusePassias (fin b) := by
  have hpi := Real.pi_pos
  rw [passias_value, passias_value, fin_le]
  have ha : 0 ≤ sinDeg (a / 2) := Real.sin_nonneg_of_nonneg_of_le_pi (by positivity) (by nlinarith)
  have : sinDeg (a / 2) ≤ sinDeg (b / 2) := by
    apply Real.sin_le_sin_of_le_of_le_pi_div_two
    · have : 0 ≤ a / 2 * (π / 180) := by positivity
      linarith
    · nlinarith
    · exact mul_le_mul_of_nonneg_right (by linarith) (by positivity)
  exact pow_le_pow_left₀ ha this 2

example := passias_mono 20 30 (by norm_num) (by norm_num) (by norm_num)

/-! ## C42: the averaged masking angle -/

/-- Real masking angle (radians) as a function of relative height. -/
def maskRad (tilt gcr x : ℝ) : ℝ :=
  Real.arctan (gcr * (1 - x) * sinDeg tilt / (1 - gcr * (1 - x) * cosDeg tilt))

/-- `masking_angle` is `maskRad` in degrees. -/
theorem maskingAngle_eq (tilt gcr x : ℝ) (hg : 0 ≤ gcr) (hg1 : gcr < 1) (hx : 0 ≤ x) (hx1 : x ≤ 1) :
    maskingAngle (fin tilt) (fin gcr) (fin x) = fin (maskRad tilt gcr x * (180 / π)) := by
  have hr := run_pos tilt gcr (1 - x) hg hg1 (by linarith) (by linarith)
  simp only [maskingAngle, maskRad, one_eq, fin_sub, fin_mul, sind_fin, cosd_fin, fin_div hr.ne', arctan_fin,
    degrees_fin]

example := maskingAngle_eq 30 0.5 0.2 (by norm_num) (by norm_num) (by norm_num) (by norm_num)

/-- C42. `masking_angle_passias` always returns a number: wherever the closed form is undefined (a horizontal array
whose rows touch, a zero ground coverage ratio, missing inputs) it returns 0. -/
theorem passias_always_number (tilt gcr : Fl) :
    (∃ r, maskingAnglePassias tilt gcr = fin r) ∧ maskingAnglePassias (fin 0) (fin 1) = fin 0 ∧
    (tilt = nan ∨ gcr = nan → maskingAnglePassias tilt gcr = fin 0) := by
  refine ⟨?_, ?_, ?_⟩
  · simp only [maskingAnglePassias, npwhere]
    split_ifs with h
    · obtain ⟨r, hr⟩ := h
      rw [hr]; exact ⟨_, rfl⟩
    · exact ⟨_, rfl⟩
  · simp only [maskingAnglePassias, npwhere]
    rw [if_neg]
    · simp
    · rintro ⟨r, hr⟩
      simp [log_fin'] at hr
      norm_num [log_fin'] at hr
  · rintro (rfl | rfl) <;> simp [maskingAnglePassias, npwhere]

example := (passias_always_number nan (fin 0.5)).2.2 (Or.inl rfl)

/-- Antiderivative of `u ↦ arctan (u s / (X - u c))` used in the proof. -/
theorem passias_antideriv (X s c u : ℝ) (hs : 0 < s) (hsc : s ^ 2 + c ^ 2 = 1) (hX : 0 < X) (hr : 0 < X - u * c) :
    HasDerivAt (fun u => u * Real.arctan (u * s / (X - u * c))
        - s * X / 2 * Real.log (u ^ 2 - 2 * u * X * c + X ^ 2)
        - X * c * Real.arctan ((u - X * c) / (X * s)))
      (Real.arctan (u * s / (X - u * c))) u := by
  have hq : 0 < u ^ 2 - 2 * u * X * c + X ^ 2 := by
    have : u ^ 2 - 2 * u * X * c + X ^ 2 = (X - u * c) ^ 2 + (u * s) ^ 2 := by
      linear_combination (-(u ^ 2)) * hsc
    rw [this]; positivity
  have hd1 : HasDerivAt (fun u => u * s / (X - u * c)) ((s * (X - u * c) - u * s * (-c)) / (X - u * c) ^ 2) u := by
    have h1 : HasDerivAt (fun u => u * s) s u := by simpa using (hasDerivAt_id u).mul_const s
    have h2 : HasDerivAt (fun u => X - u * c) (-c) u := by
      simpa using ((hasDerivAt_id u).mul_const c).const_sub X
    exact h1.div h2 hr.ne'
  have hat := hd1.arctan
  have hA := (hasDerivAt_id u).mul hat
  have hL : HasDerivAt (fun u => Real.log (u ^ 2 - 2 * u * X * c + X ^ 2))
      ((2 * u - 2 * X * c) / (u ^ 2 - 2 * u * X * c + X ^ 2)) u := by
    have h1 : HasDerivAt (fun u => u ^ 2 - 2 * u * X * c + X ^ 2) (2 * u - 2 * X * c) u := by
      have a1 : HasDerivAt (fun u : ℝ => u ^ 2) (2 * u) u := by simpa using hasDerivAt_pow 2 u
      have a2 : HasDerivAt (fun u : ℝ => 2 * u * X * c) (2 * X * c) u := by
        have := ((((hasDerivAt_id u).const_mul 2).mul_const X).mul_const c)
        simpa using this
      simpa using (a1.sub a2).add_const (X ^ 2)
    exact h1.log hq.ne'
  have hB : HasDerivAt (fun u => Real.arctan ((u - X * c) / (X * s)))
      (1 / (1 + ((u - X * c) / (X * s)) ^ 2) * (1 / (X * s))) u := by
    have h1 : HasDerivAt (fun u => (u - X * c) / (X * s)) (1 / (X * s)) u := by
      simpa using ((hasDerivAt_id u).sub_const (X * c)).div_const (X * s)
    exact h1.arctan
  have hall := (hA.sub (hL.const_mul (s * X / 2))).sub (hB.const_mul (X * c))
  refine hall.congr_deriv ?_
  simp only [id, one_mul]
  have e1 : 1 + (u * s / (X - u * c)) ^ 2 = (u ^ 2 - 2 * u * X * c + X ^ 2) / (X - u * c) ^ 2 := by
    field_simp
    linear_combination (u ^ 2) * hsc
  have e2 : 1 + ((u - X * c) / (X * s)) ^ 2 = (u ^ 2 - 2 * u * X * c + X ^ 2) / (X * s) ^ 2 := by
    field_simp
    linear_combination (X ^ 2) * hsc
  rw [e1, e2]
  have hXs : X * s ≠ 0 := by positivity
  have : u * (1 / ((u ^ 2 - 2 * u * X * c + X ^ 2) / (X - u * c) ^ 2) * ((s * (X - u * c) - u * s * -c) / (X - u * c) ^ 2))
      - s * X / 2 * ((2 * u - 2 * X * c) / (u ^ 2 - 2 * u * X * c + X ^ 2))
      - X * c * (1 / ((u ^ 2 - 2 * u * X * c + X ^ 2) / (X * s) ^ 2) * (1 / (X * s))) = 0 := by
    have hrn := hr.ne'
    have hqn := hq.ne'
    field_simp
    ring
  linarith

/-- C42. For every tilt strictly between 0 and 90 degrees and every gcr in (0, 1), the closed form of
`masking_angle_passias` is exactly the average of `masking_angle` over the collector height. -/
theorem maskingAnglePassias_average (tilt gcr : ℝ) (ht : 0 < tilt) (ht1 : tilt < 90) (hg : 0 < gcr) (hg1 : gcr < 1) :
    maskingAnglePassias (fin tilt) (fin gcr) =
      fin ((∫ x in (0:ℝ)..1, maskRad tilt gcr x) * (180 / π)) := by
  have hpi := Real.pi_pos
  set s := sinDeg tilt with hs
  set c := cosDeg tilt with hc
  have hspos : 0 < s := Real.sin_pos_of_pos_of_lt_pi (by positivity) (by nlinarith)
  have hcpos : 0 < c := Real.cos_pos_of_mem_Ioo ⟨by nlinarith, by nlinarith⟩
  have hsc : s ^ 2 + c ^ 2 = 1 := Real.sin_sq_add_cos_sq _
  have hc1 : c < 1 := by nlinarith
  set X := 1 / gcr with hX
  have hXpos : 0 < X := by positivity
  have hX1 : 1 < X := (one_lt_div hg).mpr hg1
  have hrun : ∀ u, u ∈ Set.uIcc (0:ℝ) 1 → 0 < X - u * c := by
    intro u hu
    rw [Set.uIcc_of_le (by norm_num)] at hu
    nlinarith [hu.1, hu.2]
  -- the integral
  have hint : ∫ x in (0:ℝ)..1, maskRad tilt gcr x = ∫ u in (0:ℝ)..1, Real.arctan (u * s / (X - u * c)) := by
    have h1 : ∀ x, maskRad tilt gcr x = (fun u => Real.arctan (u * s / (X - u * c))) (1 - x) := by
      intro x
      simp only [maskRad, ← hs, ← hc, hX]
      congr 1
      by_cases h : 1 - gcr * (1 - x) * c = 0
      · have h2 : 1 / gcr - (1 - x) * c = 0 := by field_simp; linarith
        rw [h, h2, div_zero, div_zero]
      · have h2 : 1 / gcr - (1 - x) * c ≠ 0 := by
          intro h3; apply h; field_simp at h3; linarith
        rw [div_eq_div_iff h h2]
        field_simp
    simp only [h1]
    rw [intervalIntegral.integral_comp_sub_left (fun u => Real.arctan (u * s / (X - u * c))) 1]
    norm_num
  have hval : ∫ u in (0:ℝ)..1, Real.arctan (u * s / (X - u * c)) =
      (1 * Real.arctan (1 * s / (X - 1 * c)) - s * X / 2 * Real.log (1 ^ 2 - 2 * 1 * X * c + X ^ 2)
        - X * c * Real.arctan ((1 - X * c) / (X * s))) -
      (0 * Real.arctan (0 * s / (X - 0 * c)) - s * X / 2 * Real.log (0 ^ 2 - 2 * 0 * X * c + X ^ 2)
        - X * c * Real.arctan ((0 - X * c) / (X * s))) := by
    apply intervalIntegral.integral_eq_sub_of_hasDerivAt
      (f := fun u => u * Real.arctan (u * s / (X - u * c))
        - s * X / 2 * Real.log (u ^ 2 - 2 * u * X * c + X ^ 2)
        - X * c * Real.arctan ((u - X * c) / (X * s)))
    · intro u hu
      exact passias_antideriv X s c u hspos hsc hXpos (hrun u hu)
    · apply ContinuousOn.intervalIntegrable
      apply Real.continuous_arctan.comp_continuousOn
      apply ContinuousOn.div
      · fun_prop
      · fun_prop
      · intro u hu; exact (hrun u hu).ne'
  have hadd : Real.arctan ((1 - X * c) / (X * s)) + Real.arctan (c / s) = Real.arctan (s / (X - c)) := by
    have hXc : 0 < X - c := by linarith
    have hlt : (1 - X * c) / (X * s) * (c / s) < 1 := by
      rw [div_mul_div_comm, div_lt_one (by positivity)]
      nlinarith
    rw [Real.arctan_add hlt]
    congr 1
    have hd : 1 - (1 - X * c) / (X * s) * (c / s) = (X - c) / (X * s ^ 2) := by
      field_simp
      linear_combination (X) * hsc
    rw [hd]
    field_simp
    ring
  have hq : 0 < 1 - 2 * X * c + X ^ 2 := by
    have : 1 - 2 * X * c + X ^ 2 = (X - c) ^ 2 + s ^ 2 := by linear_combination -hsc
    rw [this]; positivity
  have habs : |2 * X * c - (X ^ 2 + 1)| = 1 - 2 * X * c + X ^ 2 := by
    rw [abs_of_neg (by linarith)]; ring
  have hneg : Real.arctan ((0 - X * c) / (X * s)) = -Real.arctan (c / s) := by
    rw [← Real.arctan_neg]; congr 1; field_simp; ring
  have hneg2 : Real.arctan ((X * c - 1) / (X * s)) = -Real.arctan ((1 - X * c) / (X * s)) := by
    rw [← Real.arctan_neg]; congr 1; field_simp; ring
  have hXs : X * s ≠ 0 := by positivity
  rw [hint, hval]
  simp only [maskingAnglePassias, radians_fin, sin_fin, cos_fin, one_eq, fin_div hg.ne', ← hX]
  have es : Real.sin (tilt * (π / 180)) = s := rfl
  have ec : Real.cos (tilt * (π / 180)) = c := rfl
  rw [es, ec]
  simp only [ofNat_eq, fin_mul, fin_pow, fin_add, fin_sub, abs_fin, habs, log_fin hq, neg_fin,
    fin_div (by norm_num : (2:ℝ) ≠ 0), fin_div hXs, fin_div hspos.ne', arctan_fin, log_fin hXpos, npwhere,
    isfinite_fin, if_true, degrees_fin, fin_inj]
  congr 1
  rw [hneg, hneg2]
  have hl : Real.log (0 ^ 2 - 2 * 0 * X * c + X ^ 2) = 2 * Real.log X := by
    rw [show (0:ℝ) ^ 2 - 2 * 0 * X * c + X ^ 2 = X ^ 2 by ring, Real.log_pow]; norm_num
  have hl2 : (1:ℝ) ^ 2 - 2 * 1 * X * c + X ^ 2 = 1 - 2 * X * c + X ^ 2 := by ring
  rw [hl, hl2, one_mul, one_mul, one_mul, ← hadd]
  ring

example : (0:ℝ) < 30 ∧ (30:ℝ) < 90 ∧ (0:ℝ) < 0.4 ∧ (0.4:ℝ) < 1 := by norm_num

/-- At zero tilt the singular closed form is replaced by 0, which is the correct average there. -/
theorem maskingAnglePassias_flat (gcr : ℝ) (hg : 0 < gcr) (hg1 : gcr < 1) :
    maskingAnglePassias 0 (fin gcr) = fin 0 ∧ ∫ x in (0:ℝ)..1, maskRad 0 gcr x = 0 := by
  constructor
  · have hX1 : 1 < 1 / gcr := (one_lt_div hg).mpr hg1
    simp only [maskingAnglePassias, zero_eq, radians_fin, zero_mul, sin_fin, cos_fin, Real.sin_zero,
      Real.cos_zero, one_eq, fin_div hg.ne', fin_mul, mul_zero]
    have h1 : fin 1 / fin 0 = pinf := by rw [fin_div_zero, infSign_pos one_pos]
    have h2 : (fin (1 / gcr * 1) - fin 1) / fin 0 = pinf := by
      rw [fin_sub, fin_div_zero, infSign_pos (by linarith)]
    have hat : Fl.arctan pinf = fin (π / 2) := rfl
    have hq : (0:ℝ) < |2 * (1 / gcr) * 1 - ((1 / gcr) ^ 2 + 1)| := by
      apply abs_pos.mpr; nlinarith [sq_nonneg (1 / gcr - 1), mul_pos (sub_pos.mpr hX1) (sub_pos.mpr hX1)]
    have hXp : (0:ℝ) < 1 / gcr := by positivity
    rw [h1, h2, hat]
    simp only [ofNat_eq, fin_mul, fin_pow, fin_add, fin_sub, abs_fin, neg_fin, log_fin hXp]
    rw [log_fin hq]
    simp only [fin_mul, mul_zero, fin_div (by norm_num : (2:ℝ) ≠ 0), fin_add, npwhere, isfinite_fin, if_true,
      degrees_fin, fin_inj, zero_mul]
    ring
  · simp [maskRad, sinDeg]

example := maskingAnglePassias_flat 0.5 (by norm_num) (by norm_num)

end Pvlib.Props.Shading
end
