import Verif.Props.SolarGeometry
import Verif.Props.SolarLocal

/-! # Property C199: the two hemispheres are mirror images

Mirroring the earth on the plane of its equator turns latitude and declination into their opposites. -/

noncomputable section
open scoped Classical
open Real
namespace Pvlib.Props.Hemispheres
open Fl Pvlib.SolarPosition Pvlib.Irradiance Pvlib.Props.SolarGeometry Pvlib.Props.SolarLocal

/-- **C199**: the zenith angle at the mirrored place and season is the same. -/
theorem zenith_mirrored (φ h δ : ℝ) :
    solarZenithAnalytical (fin (-φ)) (fin h) (fin (-δ)) = solarZenithAnalytical (fin φ) (fin h) (fin δ) := by
  rw [zenith_fin, zenith_fin, sunUp_eq, sunUp_eq]
  simp

private theorem isclose_fin (x c : ℝ) : isclose8 (fin x) (fin c) ↔ |x - c| ≤ 1e-8 := by
  simp [isclose8]

private theorem arccos_neg' (c : ℝ) : Fl.arccos (fin (-c)) = fin π - Fl.arccos (fin c) := by
  simp only [Fl.arccos]
  by_cases h : c < -1 ∨ 1 < c
  · rw [if_pos h, if_pos (by rcases h with h | h <;> [right; left] <;> linarith), sub_nan]
  · rw [if_neg h, if_neg (fun h' => h (by rcases h' with h' | h' <;> [right; left] <;> linarith)), fin_sub, Real.arccos_neg]

private theorem arccos_ne (a : ℝ) : Fl.arccos (fin a) ≠ pinf ∧ Fl.arccos (fin a) ≠ ninf := by
  simp only [Fl.arccos]; split_ifs <;> simp

/-- What is left of the azimuth formula when the sun is neither at the zenith nor the place at a pole. -/
private def clamp (q : ℝ) : ℝ := if |q - 1| ≤ 1e-8 then 1 else if |q + 1| ≤ 1e-8 then -1 else q

private theorem clamp_neg (q : ℝ) : clamp (-q) = -clamp q := by
  unfold clamp
  have e1 : |-q - 1| = |q + 1| := by rw [← abs_neg]; congr 1; ring
  have e2 : |-q + 1| = |q - 1| := by rw [← abs_neg]; congr 1; ring
  rw [e1, e2]
  by_cases h1 : |q - 1| ≤ 1e-8
  · have : ¬ |q + 1| ≤ 1e-8 := by
      intro h2
      rw [abs_le] at h1 h2
      linarith [h1.1, h2.2]
    rw [if_pos h1, if_neg this, if_pos h1]
  · rw [if_neg h1]
    by_cases h2 : |q + 1| ≤ 1e-8
    · rw [if_pos h2, if_neg h1, if_pos h2, neg_neg]
    · rw [if_neg h2, if_neg h2, if_neg h1]

private theorem azimuth_clamp (φ h δ z : ℝ) (hd : 1e-8 < |Real.sin z * Real.cos φ|) :
    solarAzimuthAnalytical (fin φ) (fin h) (fin δ) (fin z) =
      Fl.sign (fin h) * Fl.arccos (fin (clamp ((Real.cos z * Real.sin φ - Real.sin δ) / (Real.sin z * Real.cos φ)))) + fin π := by
  have hne : Real.sin z * Real.cos φ ≠ 0 := by
    intro h0; rw [h0] at hd; norm_num at hd
  have e0 : ¬ isclose8 (fin (Real.sin z * Real.cos φ)) (fin 0) := by
    rw [isclose_fin, sub_zero]; linarith
  simp only [solarAzimuthAnalytical, Fl.cos, Fl.sin, fin_mul, fin_sub, Fl.fin_div hne, zero_eq, one_eq, neg_fin]
  simp only [npwhere, if_neg e0]
  congr 3
  unfold clamp
  generalize (Real.cos z * Real.sin φ - Real.sin δ) / (Real.sin z * Real.cos φ) = q
  by_cases h1 : |q - 1| ≤ 1e-8
  · rw [if_pos h1, if_pos ((isclose_fin _ _).2 h1), if_neg (by rw [isclose_fin]; norm_num)]
  · rw [if_neg h1, if_neg (mt (isclose_fin _ _).1 h1)]
    have e : |q + 1| = |q - -1| := by congr 1; ring
    rw [e]
    by_cases h2 : |q - -1| ≤ 1e-8
    · rw [if_pos h2, if_pos ((isclose_fin _ _).2 h2)]
    · rw [if_neg h2, if_neg (mt (isclose_fin _ _).1 h2)]

/-- **C199**: the azimuth at the mirrored place and season is mirrored on the east-west line: it is `180° - A` (modulo 360°), for every sun
off the meridian that is not at the zenith, anywhere but at the poles. -/
theorem azimuth_mirrored (φ h δ : ℝ) (h0 : h ≠ 0)
    (hd : ∀ z, solarZenithAnalytical (fin φ) (fin h) (fin δ) = fin z → 1e-8 < |Real.sin z * Real.cos φ|) :
    ∃ A B, solarAzimuthAnalytical (fin φ) (fin h) (fin δ) (solarZenithAnalytical (fin φ) (fin h) (fin δ)) = fin A ∧
      solarAzimuthAnalytical (fin (-φ)) (fin h) (fin (-δ)) (solarZenithAnalytical (fin (-φ)) (fin h) (fin (-δ))) = fin B ∧
      (B = π - A ∨ B = π - A + 2 * π) := by
  obtain ⟨A, hA, -⟩ := azimuth_range φ h δ
  obtain ⟨B, hB, -⟩ := azimuth_range (-φ) h (-δ)
  refine ⟨A, B, hA, hB, ?_⟩
  rw [zenith_mirrored] at hB
  obtain ⟨z, hz, -⟩ := zenith_angle φ h δ
  rw [hz] at hA hB
  have hd' := hd z hz
  rw [azimuth_clamp _ _ _ _ hd'] at hA
  rw [azimuth_clamp _ _ _ _ (by rwa [Real.cos_neg]), Real.sin_neg, Real.sin_neg, Real.cos_neg,
    show (Real.cos z * -Real.sin φ - -Real.sin δ) / (Real.sin z * Real.cos φ) =
      -((Real.cos z * Real.sin φ - Real.sin δ) / (Real.sin z * Real.cos φ)) by ring, clamp_neg, arccos_neg'] at hB
  set c := Fl.arccos (fin (clamp ((Real.cos z * Real.sin φ - Real.sin δ) / (Real.sin z * Real.cos φ)))) with hc
  clear_value c
  rw [sign_fin] at hA hB
  cases c with
  | fin c =>
    simp only [fin_sub, fin_mul, fin_add, fin_inj] at hA hB
    rcases lt_or_gt_of_ne h0 with hh | hh
    · rw [if_neg (not_lt.2 hh.le), if_pos hh] at hA hB
      left; linarith
    · rw [if_pos hh] at hA hB
      right; linarith
  | nan => simp at hA
  | pinf => exact absurd hc.symm (arccos_ne _).1
  | ninf => exact absurd hc.symm (arccos_ne _).2

/-- On the equator at the equinox, three hours after noon. -/
example := azimuth_mirrored 0 (π / 4) 0 (by positivity) (fun z hz => by
  obtain ⟨z', h', -, -, hc, -⟩ := zenith_angle 0 (π / 4) 0
  rw [hz, fin_inj] at h'
  rw [← h', sunUp_eq] at hc
  simp only [Real.cos_zero, Real.sin_zero, one_mul, mul_zero, add_zero, Real.cos_pi_div_four] at hc
  rw [Real.cos_zero, mul_one]
  have h2 := Real.sin_sq_add_cos_sq z
  rw [hc, div_pow, Real.sq_sqrt (by norm_num)] at h2
  rw [← Real.sqrt_sq_eq_abs]
  apply Real.lt_sqrt_of_sq_lt
  linarith)

/-! ### Sunrise and sunset -/

private theorem sunset_value {lat δ : ℝ} (h1 : |lat| < 90) (h2 : |δ| < π / 2) :
    sunsetAngle (fin lat) (fin δ) = Fl.arccos (fin (-(Real.tan δ) * Real.tan (lat * (π / 180)))) * fin (180 / π) := by
  have hp := Real.pi_pos
  have hφ1 : |lat * (π / 180)| < π / 2 := by
    rw [abs_mul, abs_of_pos (by positivity : 0 < π / 180)]; nlinarith
  have hcφ : 0 < Real.cos (lat * (π / 180)) :=
    Real.cos_pos_of_mem_Ioo ⟨by linarith [(abs_lt.1 hφ1).1], (abs_lt.1 hφ1).2⟩
  have hcδ : 0 < Real.cos δ := Real.cos_pos_of_mem_Ioo ⟨by linarith [(abs_lt.1 h2).1], (abs_lt.1 h2).2⟩
  simp only [sunsetAngle, Fl.radians, fin_mul, Fl.tan, hcφ.ne', hcδ.ne', if_false, neg_fin]
  rfl

/-- **C199**: sunrise, sunset and transit at the mirrored place and season are the same. -/
theorem rise_set_mirrored {z : Zone} {u lat δ : ℝ} (lon eot : Fl) (h1 : |lat| < 90) (h2 : |δ| < π / 2) :
    sunRiseSetTransitGeometric1 z u (fin (-lat)) lon (fin (-δ)) eot = sunRiseSetTransitGeometric1 z u (fin lat) lon (fin δ) eot := by
  have : sunsetAngle (fin (-lat)) (fin (-δ)) = sunsetAngle (fin lat) (fin δ) := by
    rw [sunset_value (by rwa [abs_neg]) (by rwa [abs_neg]), sunset_value h1 h2, neg_mul lat, Real.tan_neg, Real.tan_neg]
    congr 3; ring
  simp only [sunRiseSetTransitGeometric1, this]

example := rise_set_mirrored (z := fun _ => -25200) (u := 60000) (lat := 35) (δ := 0.3) (fin (-106)) (fin (-3.5)) (by norm_num [abs_lt])
  (by rw [abs_of_pos (by norm_num)]; linarith [Real.pi_gt_three])

/-- **C199**: on the same day, the day in one hemisphere is as long as the night in the other: the day lengths at opposite latitudes add
up to 24 hours. -/
theorem days_add_up {z : Zone} {u D m H : ℝ} {lat δ : ℝ} (hD : IsLocalDate z u D) (hm : OnlyAt z D m) (hz : z m = z u) (lon eot : ℝ)
    (h1 : |lat| < 90) (h2 : |δ| < π / 2) (hH : sunsetAngle (fin lat) (fin δ) = fin H) :
    ∃ r s t r' s' t', sunRiseSetTransitGeometric1 z u (fin lat) (fin lon) (fin δ) (fin eot) = .ok (fin r, fin s, fin t) ∧
      sunRiseSetTransitGeometric1 z u (fin (-lat)) (fin lon) (fin δ) (fin eot) = .ok (fin r', fin s', fin t') ∧
      t' = t ∧ (s - r) + (s' - r') = 24 * 3600 := by
  have hpi := Real.pi_pos
  have hH' : sunsetAngle (fin (-lat)) (fin δ) = fin (180 - H) := by
    rw [sunset_value h1 h2] at hH
    rw [sunset_value (by rwa [abs_neg]) h2, neg_mul lat, Real.tan_neg,
      show -Real.tan δ * -Real.tan (lat * (π / 180)) = -(-Real.tan δ * Real.tan (lat * (π / 180))) by ring, arccos_neg']
    have hn := arccos_ne (-Real.tan δ * Real.tan (lat * (π / 180)))
    generalize Fl.arccos (fin (-Real.tan δ * Real.tan (lat * (π / 180)))) = c at hH hn ⊢
    cases c with
    | fin c =>
      rw [fin_mul, fin_inj] at hH
      rw [fin_sub, fin_mul, fin_inj, ← hH]
      field_simp
    | nan => simp at hH
    | pinf => exact absurd rfl hn.1
    | ninf => exact absurd rfl hn.2
  obtain ⟨r, s, t, e, a1, a2, a3, -⟩ := rise_set_transit hD hm hz lon eot h1 h2 hH
  obtain ⟨r', s', t', e', b1, b2, b3, -⟩ := rise_set_transit hD hm hz lon eot (by rwa [abs_neg]) h2 hH'
  refine ⟨r, s, t, r', s', t', e, e', ?_, ?_⟩
  · unfold trueHourAngle at a3 b3; linarith
  · unfold trueHourAngle at a1 a2 b1 b2; linarith

example := days_add_up demo_date demo_only rfl (-106) (-3.5) (lat := 35) (δ := 0) (by norm_num [abs_lt]) (by rw [abs_zero]; positivity)
  demo_sunset.choose_spec

end Pvlib.Props.Hemispheres
end
