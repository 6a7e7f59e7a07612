import Verif.Props.Symmetry
import Verif.Model.Bifacial

/-! # Property C200: bearings and flipped modules in `infinite_sheds` -/

noncomputable section
open scoped Classical
namespace Pvlib.Props.BifacialFlip
open Fl Pvlib.Irradiance Pvlib.Tools Pvlib.Bifacial Pvlib.Props.Symmetry

private theorem cosd_bearing {az saz az' saz' : ℝ} (h : SameBearing az saz az' saz') :
    cosd (fin saz' - fin az') = cosd (fin saz - fin az) := by
  obtain ⟨k, h | h⟩ := h
  · rw [fin_sub, fin_sub, h, cosd_fin, cosd_fin,
      show (saz - az + 360 * k) * (Real.pi / 180) = (saz - az) * (Real.pi / 180) + k * (2 * Real.pi) by ring, Real.cos_add_int_mul_two_pi]
  · rw [fin_sub, fin_sub, h, cosd_fin, cosd_fin,
      show (-(saz - az) + 360 * k) * (Real.pi / 180) = -((saz - az) * (Real.pi / 180)) + k * (2 * Real.pi) by ring,
      Real.cos_add_int_mul_two_pi, Real.cos_neg]

private theorem side_bearing {az saz az' saz' : ℝ} (h : SameBearing az saz az' saz') (tilt zen gcr height pitch ghi dhi dni albedo iam : Fl) :
    shedsSide tilt (fin az') zen (fin saz') gcr height pitch ghi dhi dni albedo iam =
      shedsSide tilt (fin az) zen (fin saz) gcr height pitch ghi dhi dni albedo iam := by
  have hp := fun t z => projection_bearing h t z
  simp only [shedsSide, shedsShadedFraction, solarProjectionTangent, aoi, beamComponent, hp, cosd_bearing h]

/-- On a horizontal surface the azimuth of the sun does not matter. -/
private theorem flat (s s' : ℝ) (zen : Fl) : aoiProjection 0 180 zen (fin s') = aoiProjection 0 180 zen (fin s) := by
  have e : ∀ (z x : ℝ), aoiProjection 0 180 (fin z) (fin x) = clip (fin (Real.cos (z * (Real.pi / 180)))) (-1) 1 := by
    intro z x
    simp only [aoiProjection, zero_eq, ofNat_eq, fin_sub, cosd_fin, sind_fin, fin_mul, fin_add, zero_mul, Real.sin_zero, Real.cos_zero, one_mul,
      add_zero]
  cases zen with
  | fin z => rw [e, e]
  | _ => simp [aoiProjection, cosd, Fl.cos, radians, infSign_pos, Real.pi_pos]

/-- **C200**: one side of an array depends on the azimuths through the bearing between surface and sun only: adding one angle to both,
whole turns to either, or mirroring the scene changes nothing, for every sky model and every value (also NaN) of the other arguments. -/
theorem poa_bearing {az saz az' saz' : ℝ} (h : SameBearing az saz az' saz') (tilt zen gcr height pitch ghi dhi dni albedo : Fl)
    (model : String) (dni_extra : Option Fl) (iam : Fl) :
    shedsGetIrradiancePoa tilt (fin az') zen (fin saz') gcr height pitch ghi dhi dni albedo model dni_extra iam =
      shedsGetIrradiancePoa tilt (fin az) zen (fin saz) gcr height pitch ghi dhi dni albedo model dni_extra iam := by
  have h0 : ∀ (s s' : ℝ), SameBearing s s s' s' := fun s s' => ⟨0, .inl (by push_cast; ring)⟩
  simp only [shedsGetIrradiancePoa]
  by_cases hm : model = "haydavies"
  · rw [if_pos hm, if_pos hm]
    cases dni_extra with
    | none => rfl
    | some e =>
      simp only
      rw [side_bearing h]
      have hs : moveCircumsolar (fun t a => haydavies t a dhi dni e zen (fin saz')) zen (fin saz') dhi dni =
          moveCircumsolar (fun t a => haydavies t a dhi dni e zen (fin saz)) zen (fin saz) dhi dni := by
        simp only [moveCircumsolar, circumsolar, haydavies, haydaviesRb, projectionRatio, projection_bearing (h0 saz saz'), flat saz saz']
      rw [hs]
  · rw [if_neg hm, if_neg hm, side_bearing h]

example := poa_bearing (moves 180 200 0 0 1).2.1 30 40 0.4 1 3 700 100 800 0.2 "haydavies" (some 1367) 0.97

/-- **C200**: turning a module over (its back becomes the front: tilt 180 - tilt, opposite azimuth, the incidence modifiers exchanged)
exchanges the results of the two sides - every column - and changes no exception. -/
theorem flip (tilt az saz : ℝ) (zen gcr height pitch ghi dhi dni albedo : Fl) (model : String) (dni_extra : Option Fl)
    (iam_front iam_back b shade trans b' shade' trans' : Fl) :
    (shedsGetIrradiance (180 - fin tilt) (fin (az + 180)) zen (fin saz) gcr height pitch ghi dhi dni albedo model dni_extra iam_back iam_front
        b' shade' trans').map (fun r => (r.back, r.front)) =
      (shedsGetIrradiance (fin tilt) (fin az) zen (fin saz) gcr height pitch ghi dhi dni albedo model dni_extra iam_front iam_back
        b shade trans).map (fun r => (r.front, r.back)) := by
  have e1 : ∀ t : ℝ, (180 : Fl) - (180 - fin t) = fin t := by
    intro t; rw [ofNat_eq, fin_sub, fin_sub, fin_inj]; ring
  have e2 : ∀ a : ℝ, ∃ k : ℤ, Fl.mod (180 + fin a) 360 = fin (180 + a - 360 * k) := by
    intro a
    rw [ofNat_eq, ofNat_eq, fin_add, mod_fin (by norm_num)]
    exact ⟨_, rfl⟩
  obtain ⟨k, hk⟩ := e2 az
  obtain ⟨k', hk'⟩ := e2 (az + 180)
  simp only [shedsGetIrradiance, backside, e1, hk, hk']
  have b1 : SameBearing az saz (180 + (az + 180) - 360 * k') saz := ⟨k' - 1, .inl (by push_cast; ring)⟩
  have b2 : SameBearing (180 + az - 360 * k) saz (az + 180) saz := ⟨-k, .inl (by push_cast; ring)⟩
  rw [poa_bearing b1, poa_bearing b2]
  cases model_front : shedsGetIrradiancePoa (fin tilt) (fin az) zen (fin saz) gcr height pitch ghi dhi dni albedo model dni_extra iam_front with
  | error e =>
    simp only [shedsGetIrradiancePoa] at model_front
    split_ifs at model_front with hm
    cases dni_extra with
    | none =>
      simp only [shedsGetIrradiancePoa, if_pos hm]
      cases model_front; rfl
    | some e => cases model_front
  | ok f =>
    cases hb : shedsGetIrradiancePoa (180 - fin tilt) (fin (180 + az - 360 * k)) zen (fin saz) gcr height pitch ghi dhi dni albedo model dni_extra
      iam_back <;> rfl

example := flip 20 180 200 40 0.4 1 3 700 100 800 0.2 "haydavies" (some 1367) 0.97 0.96 0.8 0 0 0.8 0 0

end Pvlib.Props.BifacialFlip
end
