import Verif.Props.ClearskyBird
import Mathlib.Analysis.SpecialFunctions.Pow.Deriv
import Mathlib.Analysis.Calculus.Deriv.MeanValue
import Mathlib.Analysis.MeanInequalities

/-! # Property C225: more ozone, water vapour or aerosol in Bird's model -/

noncomputable section
open scoped Classical
open Real
namespace Pvlib.Props.BirdHaze
open Fl Pvlib.Clearsky Pvlib.Spec Pvlib.Tools Pvlib.Props.ClearskyBird

/-! ### The transmittances fall -/

/-- `x (1 + c x)^(-p)` grows, for an exponent up to 1. -/
private theorem absorb_mono {c p x y : ℝ} (hc : 0 ≤ c) (hp : 0 ≤ p) (hp1 : p ≤ 1) (hx : 0 ≤ x) (hxy : x ≤ y) : x * (1 + c * x) ^ (-p) ≤ y * (1 + c * y) ^ (-p) := by
  rcases hx.eq_or_lt with rfl | hx
  · have : 0 ≤ 1 + c * y := by positivity
    have := Real.rpow_nonneg this (-p)
    have : 0 ≤ y * (1 + c * y) ^ (-p) := mul_nonneg hxy this
    simpa using this
  have hy : 0 < y := hx.trans_le hxy
  have form : ∀ z : ℝ, 0 < z → z * (1 + c * z) ^ (-p) = z ^ (1 - p) * (z / (1 + c * z)) ^ p := by
    intro z hz
    have h1 : 0 < 1 + c * z := by positivity
    rw [Real.div_rpow hz.le h1.le, Real.rpow_neg h1.le, Real.rpow_sub hz, Real.rpow_one]
    have := (Real.rpow_pos_of_pos hz p).ne'
    field_simp
  rw [form x hx, form y hy]
  have h1 : 0 < 1 + c * x := by positivity
  have h2 : 0 < 1 + c * y := by positivity
  refine mul_le_mul (Real.rpow_le_rpow hx.le hxy (by linarith)) (Real.rpow_le_rpow (by positivity) ?_ hp) (by positivity) (by positivity)
  rw [div_le_div_iff₀ h1 h2]
  nlinarith

/-- Ozone. -/
theorem ozone_falls {x y : ℝ} (hx : 0 ≤ x) (hxy : x ≤ y) (hy : y ≤ 6) : ozoneR y ≤ ozoneR x := by
  have h1 := absorb_mono (c := 139.48) (p := 0.3034) (by norm_num) (by norm_num) (by norm_num) hx hxy
  have h2 : 0.002715 * x / (1 + 0.044 * x + 0.0003 * x ^ 2) ≤ 0.002715 * y / (1 + 0.044 * y + 0.0003 * y ^ 2) := by
    have hy0 := hx.trans hxy
    rw [div_le_div_iff₀ (by positivity) (by positivity)]
    have e : 0.002715 * y * (1 + 0.044 * x + 0.0003 * x ^ 2) - 0.002715 * x * (1 + 0.044 * y + 0.0003 * y ^ 2) = 0.002715 * ((y - x) * (1 - 0.0003 * (x * y))) := by ring
    have : x * y ≤ 36 := by nlinarith
    have := mul_nonneg (sub_nonneg.2 hxy) (by linarith : 0 ≤ 1 - 0.0003 * (x * y))
    linarith
  unfold ozoneR
  have e : ∀ z : ℝ, 0.1611 * z * (1 + 139.48 * z) ^ (-0.3034 : ℝ) = 0.1611 * (z * (1 + 139.48 * z) ^ (-0.3034 : ℝ)) := fun z => by ring
  rw [e, e]
  linarith

/-- Water vapour. -/
theorem water_falls {x y : ℝ} (hx : 0 ≤ x) (hxy : x ≤ y) : waterR y ≤ waterR x := by
  have hy0 := hx.trans hxy
  have h1 := absorb_mono (c := 79.034) (p := 0.6828) (by norm_num) (by norm_num) (by norm_num) hx hxy
  have q1 : 0 < 1 + 79.034 * x := by positivity
  have q2 : 0 < 1 + 79.034 * y := by positivity
  rw [Real.rpow_neg q1.le, Real.rpow_neg q2.le, ← div_eq_mul_inv, ← div_eq_mul_inv, div_le_div_iff₀ (by positivity) (by positivity)] at h1
  unfold waterR
  have : 2.4959 * x / ((1 + 79.034 * x) ^ (0.6828 : ℝ) + 6.385 * x) ≤ 2.4959 * y / ((1 + 79.034 * y) ^ (0.6828 : ℝ) + 6.385 * y) := by
    rw [div_le_div_iff₀ (by positivity) (by positivity)]
    nlinarith
  linarith

private theorem depth_mono : MonotoneOn (fun t : ℝ => t ^ (0.873 : ℝ) * (1 + t - t ^ (0.7088 : ℝ))) (Set.Ici 0) := by
  have hform : ∀ t : ℝ, 0 ≤ t → t ^ (0.873 : ℝ) * (1 + t - t ^ (0.7088 : ℝ)) = t ^ (0.873 : ℝ) + t ^ (1.873 : ℝ) - t ^ (1.5818 : ℝ) := by
    intro t ht
    rcases ht.eq_or_lt with rfl | ht
    · rw [Real.zero_rpow (by norm_num), Real.zero_rpow (by norm_num), Real.zero_rpow (by norm_num)]; ring
    have e1 : t ^ (1.873 : ℝ) = t ^ (0.873 : ℝ) * t := by
      rw [show (1.873 : ℝ) = 0.873 + 1 by norm_num, Real.rpow_add ht, Real.rpow_one]
    have e2 : t ^ (1.5818 : ℝ) = t ^ (0.873 : ℝ) * t ^ (0.7088 : ℝ) := by
      rw [← Real.rpow_add ht]; norm_num
    rw [e1, e2]; ring
  have main : MonotoneOn (fun t : ℝ => t ^ (0.873 : ℝ) + t ^ (1.873 : ℝ) - t ^ (1.5818 : ℝ)) (Set.Ici 0) := by
    have hder : ∀ t : ℝ, 0 < t → HasDerivAt (fun t : ℝ => t ^ (0.873 : ℝ) + t ^ (1.873 : ℝ) - t ^ (1.5818 : ℝ))
        (0.873 * t ^ (0.873 - 1 : ℝ) + 1.873 * t ^ (1.873 - 1 : ℝ) - 1.5818 * t ^ (1.5818 - 1 : ℝ)) t := fun t ht =>
      ((Real.hasDerivAt_rpow_const (Or.inl ht.ne')).fun_add (Real.hasDerivAt_rpow_const (Or.inl ht.ne'))).fun_sub (Real.hasDerivAt_rpow_const (Or.inl ht.ne'))
    refine monotoneOn_of_deriv_nonneg (convex_Ici 0) ?_ ?_ ?_
    · refine ContinuousOn.sub (ContinuousOn.add ?_ ?_) ?_ <;>
        exact (Real.continuous_rpow_const (by norm_num)).continuousOn
    · intro t ht
      rw [interior_Ici] at ht
      exact (hder t ht).differentiableAt.differentiableWithinAt
    · intro t ht
      rw [interior_Ici] at ht
      have ht : 0 < t := ht
      rw [(hder t ht).deriv]
      have e1 : t ^ (1.873 - 1 : ℝ) = t ^ (0.873 - 1 : ℝ) * t := by
        rw [show (1.873 - 1 : ℝ) = (0.873 - 1) + 1 by norm_num, Real.rpow_add ht, Real.rpow_one]
      have e2 : t ^ (1.5818 - 1 : ℝ) = t ^ (0.873 - 1 : ℝ) * t ^ (0.7088 : ℝ) := by
        rw [← Real.rpow_add ht]; norm_num
      have am : t ^ (0.7088 : ℝ) ≤ 0.7088 * t + 0.2912 := by
        have := Real.geom_mean_le_arith_mean2_weighted (by norm_num : (0 : ℝ) ≤ 0.7088) (by norm_num : (0 : ℝ) ≤ 0.2912) ht.le zero_le_one (by norm_num)
        simpa using this
      have hp := Real.rpow_pos_of_pos ht (0.873 - 1)
      rw [e1, e2]
      have e : 0.873 * t ^ (0.873 - 1 : ℝ) + 1.873 * (t ^ (0.873 - 1 : ℝ) * t) - 1.5818 * (t ^ (0.873 - 1 : ℝ) * t ^ (0.7088 : ℝ)) =
          t ^ (0.873 - 1 : ℝ) * (0.873 + 1.873 * t - 1.5818 * t ^ (0.7088 : ℝ)) := by ring
      rw [e]
      exact mul_nonneg hp.le (by linarith)
  intro s hs t ht hst
  simp only
  rw [hform s hs, hform t ht]
  exact main hs ht hst

/-- Aerosol. -/
theorem aerosol_falls {s t m : ℝ} (hs : 0 ≤ s) (hst : s ≤ t) (hm : 0 ≤ m) : aerosolR t m ≤ aerosolR s m := by
  have h := depth_mono (Set.mem_Ici.2 hs) (Set.mem_Ici.2 (hs.trans hst)) hst
  simp only at h
  have := mul_le_mul_of_nonneg_right h (Real.rpow_nonneg hm 0.9108)
  unfold aerosolR
  apply Real.exp_le_exp.2
  linarith

/-! ### What the model returns -/

/-- **C225**: with more ozone or more water vapour (air mass up to 29) all four results are the same or smaller: beam, horizontal beam, global and diffuse. -/
theorem absorbers {z am a380 a500 pw pw' oz oz' p I0 asym alb : ℝ} (h : BirdRange am p oz pw (0.27583 * a380 + 0.35 * a500) asym alb)
    (h' : BirdRange am p oz' pw' (0.27583 * a380 + 0.35 * a500) asym alb) (hpw : pw ≤ pw') (hoz : oz ≤ oz') (hI : 0 ≤ I0) (hz : -90 ≤ z) :
    ∃ b g n d b' g' n' d' : ℝ,
      bird (fin z) (fin am) (fin a380) (fin a500) (fin pw) (fin oz) (fin p) (fin I0) (fin asym) (fin alb) = ⟨fin b, fin g, fin n, fin d⟩ ∧
      bird (fin z) (fin am) (fin a380) (fin a500) (fin pw') (fin oz') (fin p) (fin I0) (fin asym) (fin alb) = ⟨fin b', fin g', fin n', fin d'⟩ ∧
      b' ≤ b ∧ g' ≤ g ∧ n' ≤ n ∧ d' ≤ d := by
  obtain ⟨b, g, n, d, e, e1, e2, e3, -, e4, -⟩ := bird_closure h hI hz
  obtain ⟨b', g', n', d', f, f1, f2, f3, -, f4, -⟩ := bird_closure h' hI hz
  have hm := h.airmass.1
  have o1 := ozone_falls h.ozone.1 (mul_le_mul_of_nonneg_right hoz hm) h'.ozone.2
  have w1 := water_falls (mul_nonneg hm h.water) (mul_le_mul_of_nonneg_left hpw hm)
  obtain ⟨-, ⟨oz0, -⟩, -, ⟨wz0, -⟩, ⟨az0, -⟩⟩ := transmittances hm h.airmass.2 h.ozone.1 h.ozone.2 (mul_nonneg hm h.water) h.aod
  obtain ⟨-, ⟨oz1, -⟩, -, ⟨wz1, -⟩, -⟩ := transmittances hm h.airmass.2 h'.ozone.1 h'.ozone.2 (mul_nonneg hm h'.water) h.aod
  obtain ⟨⟨r0, -⟩, -, ⟨g0, -⟩, -, -⟩ := transmittances (x := 0) (y := 0) (t := 0) h.pressure.1 h.pressure.2 le_rfl (by norm_num) le_rfl le_rfl
  -- both results carry the product of the two transmittances
  obtain ⟨k, hk0, hk1, hk⟩ : ∃ k : ℝ, 0 ≤ k ∧ k ≤ 1 ∧ ozoneR (oz' * am) * waterR (am * pw') = k * (ozoneR (oz * am) * waterR (am * pw)) := by
    have hP : 0 < ozoneR (oz * am) * waterR (am * pw) := mul_pos oz0 wz0
    refine ⟨ozoneR (oz' * am) * waterR (am * pw') / (ozoneR (oz * am) * waterR (am * pw)), by positivity, (div_le_one hP).2 ?_, (div_mul_cancel₀ _ hP.ne').symm⟩
    exact mul_le_mul o1 w1 wz1.le oz0.le
  have F := bird_formula (z := z) (I0 := I0) h
  have F' := bird_formula (z := z) (I0 := I0) h'
  rw [e] at F
  rw [f] at F'
  simp only [BirdOut.mk.injEq] at F F'
  have dni : birdDni am (am * p / 101325) oz' pw' (0.27583 * a380 + 0.35 * a500) I0 = k * birdDni am (am * p / 101325) oz pw (0.27583 * a380 + 0.35 * a500) I0 := by
    unfold birdDni
    linear_combination (0.9662 * I0 * aerosolR (0.27583 * a380 + 0.35 * a500) am * gasesR (am * p / 101325) * rayleighR (am * p / 101325)) * hk
  have sc : birdScattered (cosUp z) am (am * p / 101325) oz' pw' (0.27583 * a380 + 0.35 * a500) I0 asym =
      k * birdScattered (cosUp z) am (am * p / 101325) oz pw (0.27583 * a380 + 0.35 * a500) I0 asym := by
    unfold birdScattered
    linear_combination (I0 * cosUp z * 0.79 * gasesR (am * p / 101325) * absorbR (0.27583 * a380 + 0.35 * a500) am *
      (0.5 * (1 - rayleighR (am * p / 101325)) + asym * (1 - aerosolR (0.27583 * a380 + 0.35 * a500) am / absorbR (0.27583 * a380 + 0.35 * a500) am)) /
      (1 - am + am ^ (1.02 : ℝ))) * hk
  have hn : n' = k * n := by rw [Fl.fin.inj F.2.2.1, Fl.fin.inj F'.2.2.1, dni]
  have hb : b' = k * b := by rw [f2, e2, hn]; ring
  have hg : g' = k * g := by
    rw [Fl.fin.inj F.2.1, Fl.fin.inj F'.2.1, dni, sc]; ring
  have hd : d' = k * d := by linear_combination hg - hb + k * e1 - f1
  have hb0 : 0 ≤ b := by
    rw [e2]
    refine mul_nonneg e3 ?_
    unfold cosUp
    split_ifs with hz'
    · have hp := Real.pi_pos
      apply Real.cos_nonneg_of_neg_pi_div_two_le_of_le
      · calc -(π / 2) = (-90) * (π / 180) := by ring
          _ ≤ z * (π / 180) := by gcongr
      · calc z * (π / 180) ≤ 90 * (π / 180) := by gcongr
          _ = π / 2 := by ring
    · exact le_rfl
  refine ⟨b, g, n, d, b', g', n', d', e, f, ?_, ?_, ?_, ?_⟩
  · rw [hb]; exact mul_le_of_le_one_left hb0 hk1
  · rw [hg]; exact mul_le_of_le_one_left (by linarith) hk1
  · rw [hn]; exact mul_le_of_le_one_left e3 hk1
  · rw [hd]; exact mul_le_of_le_one_left e4 hk1

example := absorbers (z := 48) (am := 1.5) (a380 := 0.15) (a500 := 0.1) (pw := 1.5) (pw' := 4) (oz := 0.3) (oz' := 0.35) (p := 101325) (I0 := 1367) (asym := 0.85)
  (alb := 0.2) (by constructor <;> norm_num) (by constructor <;> norm_num) (by norm_num) (by norm_num) (by norm_num) (by norm_num)

/-- **C225**: with a larger aerosol optical depth at 380 or 500 nm the beam, normal and horizontal, is the same or weaker. -/
theorem aerosols {z am a380 a500 a380' a500' pw oz p I0 asym alb : ℝ} (h : BirdRange am p oz pw (0.27583 * a380 + 0.35 * a500) asym alb) (h3 : a380 ≤ a380') (h5 : a500 ≤ a500')
    (hI : 0 ≤ I0) (hz : -90 ≤ z) :
    ∃ b g n d b' g' n' d' : ℝ,
      bird (fin z) (fin am) (fin a380) (fin a500) (fin pw) (fin oz) (fin p) (fin I0) (fin asym) (fin alb) = ⟨fin b, fin g, fin n, fin d⟩ ∧
      bird (fin z) (fin am) (fin a380') (fin a500') (fin pw) (fin oz) (fin p) (fin I0) (fin asym) (fin alb) = ⟨fin b', fin g', fin n', fin d'⟩ ∧
      b' ≤ b ∧ n' ≤ n := by
  have ht : 0.27583 * a380 + 0.35 * a500 ≤ 0.27583 * a380' + 0.35 * a500' := by linarith
  have h' : BirdRange am p oz pw (0.27583 * a380' + 0.35 * a500') asym alb := ⟨h.airmass, h.pressure, h.ozone, h.water, h.aod.trans ht, h.asym, h.albedo⟩
  obtain ⟨b, g, n, d, e, e1, e2, e3, -, e4, -⟩ := bird_closure h hI hz
  obtain ⟨b', g', n', d', f, f1, f2, f3, -, f4, -⟩ := bird_closure h' hI hz
  have hm := h.airmass.1
  have a1 := aerosol_falls h.aod ht hm
  obtain ⟨-, ⟨oz0, -⟩, -, ⟨wz0, -⟩, ⟨az0, -⟩⟩ := transmittances hm h.airmass.2 h.ozone.1 h.ozone.2 (mul_nonneg hm h.water) h.aod
  obtain ⟨⟨r0, -⟩, -, ⟨g0, -⟩, -, -⟩ := transmittances (x := 0) (y := 0) (t := 0) h.pressure.1 h.pressure.2 le_rfl (by norm_num) le_rfl le_rfl
  have F := bird_formula (z := z) (I0 := I0) h
  have F' := bird_formula (z := z) (I0 := I0) h'
  rw [e] at F
  rw [f] at F'
  simp only [BirdOut.mk.injEq] at F F'
  have hn : n' ≤ n := by
    rw [Fl.fin.inj F.2.2.1, Fl.fin.inj F'.2.2.1]
    unfold birdDni
    gcongr
  have hc : 0 ≤ cosUp z := by
    unfold cosUp
    split_ifs with hz'
    · have hp := Real.pi_pos
      apply Real.cos_nonneg_of_neg_pi_div_two_le_of_le
      · calc -(π / 2) = (-90) * (π / 180) := by ring
          _ ≤ z * (π / 180) := by gcongr
      · calc z * (π / 180) ≤ 90 * (π / 180) := by gcongr
          _ = π / 2 := by ring
    · exact le_rfl
  refine ⟨b, g, n, d, b', g', n', d', e, f, ?_, hn⟩
  rw [e2, f2]
  exact mul_le_mul_of_nonneg_right hn hc

example := aerosols (z := 48) (am := 1.5) (a380 := 0.15) (a500 := 0.1) (a380' := 0.4) (a500' := 0.3) (pw := 1.5) (oz := 0.3) (p := 101325) (I0 := 1367) (asym := 0.85)
  (alb := 0.2) (by constructor <;> norm_num) (by norm_num) (by norm_num) (by norm_num) (by norm_num)

end Pvlib.Props.BirdHaze
