import Verif.Props.TrigValues
import Verif.Model.Irradiance
import Verif.Props.Spec

/-!
# Angle of incidence and beam irradiance (C17, C18)
-/

noncomputable section
open scoped Classical
open Real
namespace Pvlib.Props.Geometry
open Fl Pvlib.Irradiance Pvlib.Tools Pvlib.Spec

/-- C17(a). For real angles `aoi_projection` is exactly the dot product of the surface normal and
the sun direction: the clip to [-1, 1] never changes the value. -/
theorem aoiProjection_dot (tilt az zen saz : ℝ) :
    aoiProjection (fin tilt) (fin az) (fin zen) (fin saz) =
      fin (dot (dirVec tilt az) (dirVec zen saz)) := by
  have hd : dot (dirVec tilt az) (dirVec zen saz) =
      cosDeg tilt * cosDeg zen + sinDeg tilt * sinDeg zen * cosDeg (saz - az) := by
    simp only [dot, dirVec, cosDeg, sinDeg, sub_mul, Real.cos_sub]; ring
  have h := abs_le.mp (dot_dirVec_le tilt az zen saz)
  rw [hd] at h ⊢
  have h1 : (-1 : Fl) = fin (-1) := by simp
  simp only [aoiProjection, cosd_fin, sind_fin, fin_mul, fin_add, fin_sub, h1, one_eq]
  exact clip_id h.1 h.2

example : aoiProjection 30 180 45 135 = fin (dot (dirVec 30 180) (dirVec 45 135)) :=
  aoiProjection_dot 30 180 45 135

/-- C17(b). The projection is NaN or lies in [-1, 1] for every input, and is NaN exactly when one
of the four angles is not finite. -/
theorem aoiProjection_range (tilt az zen saz : Fl) :
    NanOr (aoiProjection tilt az zen saz) (fun r => -1 ≤ r ∧ r ≤ 1) := by
  have h1 : (-1 : Fl) = fin (-1) := by simp
  unfold aoiProjection; dsimp only; rw [h1, one_eq]
  exact clip_range _ (by norm_num)

theorem aoiProjection_nan_iff (tilt az zen saz : Fl) :
    aoiProjection tilt az zen saz = nan ↔
      ¬ (isfinite tilt ∧ isfinite az ∧ isfinite zen ∧ isfinite saz) := by
  constructor
  · rintro h ⟨⟨a, rfl⟩, ⟨b, rfl⟩, ⟨c, rfl⟩, ⟨d, rfl⟩⟩
    rw [aoiProjection_dot] at h; simp at h
  · intro h
    cases tilt <;> cases zen <;> try (simp [aoiProjection]; done)
    cases az <;> cases saz <;> first | (simp [aoiProjection]; done) | (simp at h)

/-- C17(c). Rotating the surface and the sun by the same azimuth changes nothing, and full turns
of either azimuth change nothing. -/
theorem aoiProjection_rotate (tilt az zen saz d : ℝ) :
    aoiProjection (fin tilt) (fin (az + d)) (fin zen) (fin (saz + d)) =
      aoiProjection (fin tilt) (fin az) (fin zen) (fin saz) := by
  simp only [aoiProjection, fin_sub, add_sub_add_right_eq_sub]

theorem aoiProjection_turn (tilt az zen saz : ℝ) (k : ℤ) :
    aoiProjection (fin tilt) (fin az) (fin zen) (fin (saz + 360 * k)) =
      aoiProjection (fin tilt) (fin az) (fin zen) (fin saz) := by
  have : (saz + 360 * k - az) * (π / 180) = (saz - az) * (π / 180) + k * (2 * π) := by ring
  simp only [aoiProjection, fin_sub, cosd_fin, this, Real.cos_add_int_mul_two_pi]

/-- C17(d). Swapping the roles of the surface normal and the sun changes nothing. -/
theorem aoiProjection_swap (tilt az zen saz : ℝ) :
    aoiProjection (fin tilt) (fin az) (fin zen) (fin saz) =
      aoiProjection (fin zen) (fin saz) (fin tilt) (fin az) := by
  rw [aoiProjection_dot, aoiProjection_dot]; simp only [dot]; congr 1; ring

/-- C17(e). `aoi` is the angle in [0, 180] whose cosine is the dot product. -/
theorem aoi_spec (tilt az zen saz : ℝ) :
    ∃ r, aoi (fin tilt) (fin az) (fin zen) (fin saz) = fin r ∧ 0 ≤ r ∧ r ≤ 180 ∧
      cosDeg r = dot (dirVec tilt az) (dirVec zen saz) := by
  have h := abs_le.mp (dot_dirVec_le tilt az zen saz)
  refine ⟨Real.arccos (dot (dirVec tilt az) (dirVec zen saz)) * (180 / π), ?_, ?_, ?_, ?_⟩
  · rw [aoi, aoiProjection_dot, arccos_fin h.1 h.2, degrees_fin]
  · have := Real.arccos_nonneg (dot (dirVec tilt az) (dirVec zen saz)); positivity
  · have := Real.arccos_le_pi (dot (dirVec tilt az) (dirVec zen saz))
    rw [mul_div_assoc', div_le_iff₀ Real.pi_pos]; linarith
  · have : Real.arccos (dot (dirVec tilt az) (dirVec zen saz)) * (180 / π) * (π / 180) =
        Real.arccos (dot (dirVec tilt az) (dirVec zen saz)) := by
      field_simp
    rw [cosDeg, this, Real.cos_arccos h.1 h.2]

theorem aoi_range (tilt az zen saz : Fl) :
    NanOr (aoi tilt az zen saz) (fun r => 0 ≤ r ∧ r ≤ 180) := by
  by_cases h : aoiProjection tilt az zen saz = nan
  · left; simp [aoi, h]
  · rw [aoiProjection_nan_iff, not_not] at h
    obtain ⟨⟨a, rfl⟩, ⟨b, rfl⟩, ⟨c, rfl⟩, ⟨d, rfl⟩⟩ := h
    obtain ⟨r, hr, h0, h1, _⟩ := aoi_spec a b c d
    exact Or.inr ⟨r, hr, h0, h1⟩

/-- The tracker/array special case: a surface pointing at the sun has zero angle of incidence. -/
theorem aoi_facing (zen saz : ℝ) : aoi (fin zen) (fin saz) (fin zen) (fin saz) = fin 0 := by
  rw [aoi, aoiProjection_dot, dot_dirVec_self, arccos_fin (by norm_num) (le_refl _)]; simp

/-- A horizontal surface: the angle of incidence is the zenith. -/
theorem aoi_horizontal (az zen saz : ℝ) (h0 : 0 ≤ zen) (h1 : zen ≤ 180) :
    aoi 0 (fin az) (fin zen) (fin saz) = fin zen := by
  have e : dot (dirVec 0 az) (dirVec zen saz) = cosDeg zen := by simp [dot, dirVec, cosDeg, sinDeg]
  have e0 : (0 : Fl) = fin 0 := rfl
  rw [e0, aoi, aoiProjection_dot, e, arccos_fin (Real.neg_one_le_cos _) (Real.cos_le_one _),
    Real.arccos_cos (by positivity) (by nlinarith [Real.pi_pos]), degrees_fin]
  congr 1; field_simp

example := aoi_horizontal 180 40 135 (by norm_num) (by norm_num)

/-! ## C18 -/

/-- C18(a). For real inputs the beam component is the positive part of dni times the cosine of the
angle between normal and sun. -/
theorem beam_value (tilt az zen saz dni : ℝ) :
    beamComponent (fin tilt) (fin az) (fin zen) (fin saz) (fin dni) =
      fin (max (dni * dot (dirVec tilt az) (dirVec zen saz)) 0) := by
  simp [beamComponent, aoiProjection_dot]

/-- C18(b). NaN or non-negative, for every input. -/
theorem beam_nonneg (tilt az zen saz dni : Fl) :
    beamComponent tilt az zen saz dni = nan ∨ 0 ≤ beamComponent tilt az zen saz dni := by
  by_cases h : beamComponent tilt az zen saz dni = nan
  · exact Or.inl h
  · exact Or.inr (le_maximum_right h)

/-- C18(c). Sun behind the plane (or edge-on): exactly zero for dni ≥ 0. -/
theorem beam_behind (tilt az zen saz dni : ℝ) (hd : 0 ≤ dni)
    (h : dot (dirVec tilt az) (dirVec zen saz) ≤ 0) :
    beamComponent (fin tilt) (fin az) (fin zen) (fin saz) (fin dni) = fin 0 := by
  rw [beam_value, max_eq_right (mul_nonpos_of_nonneg_of_nonpos hd h)]

example := beam_behind 90 180 60 0 800 (by norm_num) (by
  simp only [dot, dirVec, sinDeg_at90, sinDeg_at180, cosDeg_at90, cosDeg_at180, cosDeg_at0, sinDeg_at0, cosDeg_at60]
  nlinarith [sinDeg_pos_of (x := 60) (by norm_num) (by norm_num)])

/-- C18(d). Never more than dni. -/
theorem beam_le_dni (tilt az zen saz dni : ℝ) (hd : 0 ≤ dni) :
    beamComponent (fin tilt) (fin az) (fin zen) (fin saz) (fin dni) ≤ fin dni := by
  rw [beam_value, fin_le]
  have h := abs_le.mp (dot_dirVec_le tilt az zen saz)
  exact max_le (by nlinarith) hd

example := beam_le_dni 30 180 40 135 800 (by norm_num)

/-- C18(e). `poa_components` computes the same beam value from `aoi`, for any sky and ground
terms. -/
theorem beam_eq_poa_direct (tilt az zen saz dni : ℝ) (sky : Sky) (g : Fl) :
    (poaComponents (aoi (fin tilt) (fin az) (fin zen) (fin saz)) (fin dni) sky g).poa_direct =
      beamComponent (fin tilt) (fin az) (fin zen) (fin saz) (fin dni) := by
  obtain ⟨r, hr, _, _, hc⟩ := aoi_spec tilt az zen saz
  rw [beam_value, hr, ← hc]
  simp [poaComponents]

/-- Non-vacuity for C18(c): sun due north, vertical south-facing plane. -/
example : dot (dirVec 90 180) (dirVec 60 0) ≤ 0 := by
  have h1 : (90 : ℝ) * (π / 180) = π / 2 := by ring
  have h2 : (180 : ℝ) * (π / 180) = π := by ring
  have h3 : (60 : ℝ) * (π / 180) = π / 3 := by ring
  simp [dot, dirVec, cosDeg, sinDeg, h1, h2, h3]; positivity

end Pvlib.Props.Geometry
end
