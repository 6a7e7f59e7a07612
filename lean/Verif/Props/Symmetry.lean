import Verif.Props.Transposition

/-! # Properties C190, C191: the compass and the unit of irradiance -/

noncomputable section
open scoped Classical
namespace Pvlib.Props.Symmetry
open Fl Pvlib.Irradiance Pvlib.Tools Pvlib.Spec

/-! ### C190: only the angle between the two azimuths matters -/

/-- Two pairs of azimuths (surface, sun) for which the angle between surface and sun is the same up to whole turns and orientation. -/
def SameBearing (az saz az' saz' : ℝ) : Prop :=
  ∃ k : ℤ, saz' - az' = saz - az + 360 * k ∨ saz' - az' = -(saz - az) + 360 * k

private theorem cosd_turn (x : ℝ) (k : ℤ) : cosd (fin (x + 360 * k)) = cosd (fin x) := by
  rw [cosd_fin, cosd_fin, show (x + 360 * k) * (Real.pi / 180) = x * (Real.pi / 180) + k * (2 * Real.pi) by ring, Real.cos_add_int_mul_two_pi]

private theorem cosd_neg (x : ℝ) : cosd (fin (-x)) = cosd (fin x) := by
  rw [cosd_fin, cosd_fin, show -x * (Real.pi / 180) = -(x * (Real.pi / 180)) by ring, Real.cos_neg]

/-- **C190**: the projection of the sun on the surface normal depends on the azimuths through that angle only, whatever the tilt and
zenith. -/
theorem projection_bearing {az saz az' saz' : ℝ} (h : SameBearing az saz az' saz') (tilt zen : Fl) :
    aoiProjection tilt (fin az') zen (fin saz') = aoiProjection tilt (fin az) zen (fin saz) := by
  obtain ⟨k, h | h⟩ := h
  · simp only [aoiProjection, fin_sub, h, cosd_turn]
  · simp only [aoiProjection, fin_sub, h, cosd_turn, cosd_neg]

/-- **C190**: turning the compass (the same angle added to both azimuths), adding whole turns to either, or mirroring the scene leaves the
result of `get_total_irradiance` - every column, every component, or the exception - unchanged, for every model, table, spline and
every value (also NaN) of the other arguments. -/
theorem total_bearing {az saz az' saz' : ℝ} (h : SameBearing az saz az' saz') (tbl : String → Option PerezTable) (f : ℕ → ℕ → Fl → Fl)
    (tilt zen dni ghi dhi : Fl) (dni_extra airmass : Option Fl) (albedo : Fl) (st : Option String) (model model_perez : String)
    (dc : Bool) :
    getTotalIrradiance tbl f tilt (fin az') zen (fin saz') dni ghi dhi dni_extra airmass albedo st model model_perez dc =
      getTotalIrradiance tbl f tilt (fin az) zen (fin saz) dni ghi dhi dni_extra airmass albedo st model model_perez dc := by
  have hp := fun t z => projection_bearing h t z
  have hsky : getSkyDiffuse tbl f tilt (fin az') zen (fin saz') dni ghi dhi dni_extra airmass model model_perez dc =
      getSkyDiffuse tbl f tilt (fin az) zen (fin saz) dni ghi dhi dni_extra airmass model model_perez dc := by
    simp only [getSkyDiffuse, klucher, haydavies, reindl, projectionRatio, perez, perezDriesse, perezTerms, hp]
  simp only [getTotalIrradiance, hsky, aoi, hp]

/-- The three moves of the statement. -/
theorem moves (az saz d : ℝ) (j k : ℤ) : SameBearing az saz (az + d) (saz + d) ∧ SameBearing az saz (az + 360 * j) (saz + 360 * k) ∧
    SameBearing az saz (2 * d - az) (2 * d - saz) ∧ SameBearing az saz saz az :=
  ⟨⟨0, .inl (by push_cast; ring)⟩, ⟨k - j, .inl (by push_cast; ring)⟩, ⟨0, .inr (by push_cast; ring)⟩, ⟨0, .inr (by push_cast; ring)⟩⟩

/-- A concrete use: Perez-Driesse, one turn added to the sun's azimuth. -/
example := total_bearing (moves 180 200 0 0 1).2.1 (fun _ => none) pdF 30 40 800 700 100 (some 1367) none 0.2 none "perez-driesse" "" true

/-- **C190**: nothing weaker would do: with the sun off the zenith and a tilted surface, two bearings with the same `poa_direct` (for
every dni) for a sun in front of the surface have the same angle. -/
theorem bearing_needed {tilt zen az saz az' saz' : ℝ} (ht : Real.sin (tilt * (Real.pi / 180)) ≠ 0) (hz : Real.sin (zen * (Real.pi / 180)) ≠ 0)
    (h : aoiProjection (fin tilt) (fin az') (fin zen) (fin saz') = aoiProjection (fin tilt) (fin az) (fin zen) (fin saz)) :
    SameBearing az saz az' saz' := by
  rw [Geometry.aoiProjection_dot, Geometry.aoiProjection_dot, fin_inj] at h
  have e : ∀ a s : ℝ, dot (dirVec tilt a) (dirVec zen s) = Real.cos (tilt * (Real.pi / 180)) * Real.cos (zen * (Real.pi / 180)) +
      Real.sin (tilt * (Real.pi / 180)) * Real.sin (zen * (Real.pi / 180)) * Real.cos ((s - a) * (Real.pi / 180)) := by
    intro a s
    rw [show (s - a) * (Real.pi / 180) = s * (Real.pi / 180) - a * (Real.pi / 180) by ring, Real.cos_sub]
    simp only [dot, dirVec, sinDeg, cosDeg]
    ring
  rw [e, e] at h
  have hc : Real.cos ((saz' - az') * (Real.pi / 180)) = Real.cos ((saz - az) * (Real.pi / 180)) := by
    have h0 := mul_ne_zero ht hz
    apply mul_left_cancel₀ h0
    linarith
  rw [Real.cos_eq_cos_iff] at hc
  obtain ⟨k, hk | hk⟩ := hc
  · refine ⟨-k, .inl ?_⟩
    have hpi := Real.pi_pos
    field_simp at hk
    push_cast
    nlinarith
  · refine ⟨k, .inr ?_⟩
    have hpi := Real.pi_pos
    field_simp at hk
    push_cast
    nlinarith

/-! ### C191: the unit of irradiance -/

section Scale
variable {k : ℝ} (hk : 0 < k)
include hk

private theorem sc_inf (s : ℝ) : fin k * infSign s = infSign s := by
  rcases lt_trichotomy s 0 with h | h | h
  · simp [infSign, h, h.not_gt, hk, hk.le]
  · simp [infSign, h]
  · simp [infSign, h, hk]

private theorem sc_add (x y : Fl) : fin k * x + fin k * y = fin k * (x + y) := by
  cases x <;> cases y <;> simp [infSign, hk, hk.not_gt, mul_add]

private theorem sc_mul (x y : Fl) : fin k * x * y = fin k * (x * y) := by
  cases x with
  | nan => simp
  | fin a => cases y with
    | nan => simp
    | fin b => simp [mul_assoc]
    | pinf => simp only [fin_mul, fin_mul_pinf, sc_inf hk]; simp only [infSign, mul_pos_iff_of_pos_left hk, mul_neg_iff, hk, hk.not_gt]; simp
    | ninf => simp only [fin_mul, fin_mul_ninf, sc_inf hk]; simp only [infSign, neg_pos, neg_lt_zero, mul_pos_iff_of_pos_left hk, mul_neg_iff, hk, hk.not_gt]; simp
  | pinf =>
    rw [fin_mul_pinf, infSign_pos hk]
    cases y with
    | nan => simp
    | fin b => rw [pinf_mul_fin, sc_inf hk]
    | pinf => rw [pinf_mul_pinf, fin_mul_pinf, infSign_pos hk]
    | ninf => rw [pinf_mul_ninf, fin_mul_ninf, infSign_neg (by linarith)]
  | ninf =>
    rw [fin_mul_ninf, infSign_neg (by linarith)]
    cases y with
    | nan => simp
    | fin b => rw [ninf_mul_fin, sc_inf hk]
    | pinf => rw [ninf_mul_pinf, fin_mul_ninf, infSign_neg (by linarith)]
    | ninf => rw [ninf_mul_ninf, fin_mul_pinf, infSign_pos hk]

private theorem mul_sc (x y : Fl) : x * (fin k * y) = fin k * (x * y) := by
  rw [mul_comm' x, sc_mul hk, mul_comm' y]

private theorem sc_div (x y : Fl) : fin k * x / y = fin k * (x / y) := by
  cases x with
  | nan => simp
  | fin a => cases y with
    | nan => simp
    | fin b =>
      by_cases hb : b = 0
      · subst hb
        rw [fin_mul, fin_div_zero, fin_div_zero, sc_inf hk]
        simp only [infSign, mul_pos_iff_of_pos_left hk, mul_neg_iff, hk, hk.not_gt]; simp
      · simp [hb, mul_div_assoc]
    | pinf => simp
    | ninf => simp
  | pinf =>
    rw [fin_mul_pinf, infSign_pos hk]
    cases y with
    | nan => simp
    | fin b => rw [pinf_div_fin]; split_ifs <;> simp [infSign, hk, hk.not_gt, hk.le]
    | pinf => simp
    | ninf => simp
  | ninf =>
    rw [fin_mul_ninf, infSign_neg (by linarith)]
    cases y with
    | nan => simp
    | fin b => rw [ninf_div_fin]; split_ifs <;> simp [infSign, hk, hk.not_gt, hk.le]
    | pinf => simp
    | ninf => simp

private theorem sc_cancel (x y : Fl) : fin k * x / (fin k * y) = x / y := by
  cases x with
  | nan => simp
  | fin a => cases y with
    | nan => simp
    | fin b =>
      by_cases hb : b = 0
      · subst hb
        rw [fin_mul, fin_mul, mul_zero, fin_div_zero, fin_div_zero]
        simp only [infSign, mul_pos_iff_of_pos_left hk, mul_neg_iff, hk, hk.not_gt]; simp
      · have : k * b ≠ 0 := mul_ne_zero hk.ne' hb
        rw [fin_mul, fin_mul, fin_div this, fin_div hb, mul_div_mul_left _ _ hk.ne']
    | pinf => simp [infSign, hk]
    | ninf => simp [infSign, hk, hk.not_gt]
  | pinf => cases y <;> simp [infSign, hk, hk.not_gt, pinf_div_fin, ninf_div_fin, mul_neg_iff]
  | ninf => cases y <;> simp [infSign, hk, hk.not_gt, pinf_div_fin, ninf_div_fin, mul_neg_iff]

private theorem sc_max (x : Fl) : maximum (fin k * x) 0 = fin k * maximum x 0 := by
  cases x with
  | nan => simp
  | fin a =>
    simp only [zero_eq, fin_mul, maximum_fin, fin_inj]
    rw [mul_max_of_nonneg _ _ hk.le, mul_zero]
  | pinf => simp [infSign, hk]
  | ninf => simp [infSign, hk, hk.not_gt]

private theorem sc_eqv (x : Fl) : eqv (fin k * x) 0 ↔ eqv x 0 := by
  cases x <;> simp [eqv, infSign, hk, hk.ne', hk.not_gt]

private theorem sc_where (c : Prop) (x : Fl) : npwhere c 0 (fin k * x) = fin k * npwhere c 0 x := by
  unfold npwhere; split_ifs <;> simp
end Scale

/-- A result with every number multiplied by `k`. -/
def scalePoa (k : ℝ) (p : Poa) : Poa :=
  ⟨fin k * p.poa_global, fin k * p.poa_direct, fin k * p.poa_diffuse, fin k * p.poa_sky_diffuse, fin k * p.poa_ground_diffuse,
    p.components.map fun c => (c.1, fin k * c.2)⟩

/-- A sky-diffuse result with every number multiplied by `k`. -/
def scaleSky (k : ℝ) (s : Sky) : Sky := ⟨fin k * s.poa_sky_diffuse, s.components.map fun c => (c.1, fin k * c.2)⟩

section Models
variable {k : ℝ} (hk : 0 < k)
include hk

private theorem iso_scale (tilt dhi : Fl) : isotropic tilt (fin k * dhi) = scaleSky k (isotropic tilt dhi) := by
  simp only [isotropic, scaleSky, List.map, sc_mul hk]

private theorem klucher_scale (tilt az dhi ghi zen saz : Fl) :
    klucher tilt az (fin k * dhi) (fin k * ghi) zen saz = fin k * klucher tilt az dhi ghi zen saz := by
  simp only [klucher, sc_cancel hk, sc_mul hk]

private theorem hd_scale (tilt az dhi dni ext zen saz : Fl) :
    haydavies tilt az (fin k * dhi) (fin k * dni) (fin k * ext) zen saz = scaleSky k (haydavies tilt az dhi dni ext zen saz) := by
  simp only [haydavies, haydaviesRb, scaleSky, List.map, sc_cancel hk, sc_mul hk, sc_max hk, sc_add hk]

private theorem reindl_scale (tilt az dhi dni ghi ext zen saz : Fl) :
    reindl tilt az (fin k * dhi) (fin k * dni) (fin k * ghi) (fin k * ext) zen saz = scaleSky k (reindl tilt az dhi dni ghi ext zen saz) := by
  simp only [reindl, scaleSky, List.map, sc_cancel hk, sc_mul hk, sc_max hk, sc_eqv hk]

private theorem king_scale (tilt dhi ghi zen : Fl) : king tilt (fin k * dhi) (fin k * ghi) zen = fin k * king tilt dhi ghi zen := by
  simp only [king, sc_mul hk, sc_div hk, sc_add hk, sc_max hk]

private theorem perez_scale (t : PerezTable) (tilt az dhi dni ext zen saz am : Fl) :
    perez t tilt az (fin k * dhi) (fin k * dni) (fin k * ext) zen saz am = scaleSky k (perez t tilt az dhi dni ext zen saz am) := by
  simp only [perez, scaleSky, List.map, sc_cancel hk, sc_mul hk, sc_add hk, sc_max hk, sc_where hk, sc_eqv hk]

private theorem pd_scale (f : ℕ → ℕ → Fl → Fl) (tilt az dhi dni ext zen saz : Fl) (am : Option Fl) :
    perezDriesse f tilt az (fin k * dhi) (fin k * dni) (fin k * ext) zen saz am =
      scaleSky k (perezDriesse f tilt az dhi dni ext zen saz am) := by
  simp only [perezDriesse, calcDelta, calcZeta, scaleSky, List.map, sc_cancel hk, sc_mul hk, sc_div hk, sc_add hk, sc_max hk, sc_eqv hk]
end Models

private theorem ite_map {α β ε : Type} {c : Prop} [Decidable c] {g : α → β} {a b : Except ε α} {a' b' : Except ε β} (h1 : a' = a.map g)
    (h2 : b' = b.map g) : (if c then a' else b') = (if c then a else b).map g := by
  split_ifs
  · exact h1
  · exact h2

/-- **C191**: the sky-diffuse irradiance, for every model: multiplying all irradiances (also `dni_extra`) by a positive number multiplies
the total and every component by it, and neither causes nor hides an exception. -/
theorem sky_scale {k : ℝ} (hk : 0 < k) (tbl : String → Option PerezTable) (f : ℕ → ℕ → Fl → Fl) (tilt az zen saz dni ghi dhi : Fl)
    (dni_extra airmass : Option Fl) (model model_perez : String) (dc : Bool) :
    getSkyDiffuse tbl f tilt az zen saz (fin k * dni) (fin k * ghi) (fin k * dhi) (dni_extra.map (fin k * ·)) airmass model model_perez dc =
      (getSkyDiffuse tbl f tilt az zen saz dni ghi dhi dni_extra airmass model model_perez dc).map (scaleSky k) := by
  have hn : (dni_extra.map (fin k * ·)).isNone = dni_extra.isNone := by cases dni_extra <;> rfl
  have he : (dni_extra.map (fin k * ·)).getD nan = fin k * dni_extra.getD nan := by cases dni_extra <;> simp
  have hs : ∀ s : Sky, (if dc = true then scaleSky k s else ⟨(scaleSky k s).poa_sky_diffuse, []⟩) =
      scaleSky k (if dc = true then s else ⟨s.poa_sky_diffuse, []⟩) := by
    intro s; split_ifs <;> rfl
  unfold getSkyDiffuse
  simp only [hn, he, iso_scale hk, klucher_scale hk, hd_scale hk, reindl_scale hk, king_scale hk, perez_scale hk, pd_scale hk, hs]
  refine ite_map rfl ?_
  refine ite_map rfl ?_
  refine ite_map rfl ?_
  refine ite_map rfl ?_
  refine ite_map rfl ?_
  refine ite_map rfl ?_
  refine ite_map rfl ?_
  refine ite_map ?_ ?_
  · cases tbl model_perez <;> rfl
  · exact ite_map rfl rfl

/-- **C191**: the same for `get_total_irradiance`: all five columns and the components are proportional to the irradiances given. -/
theorem total_scale {k : ℝ} (hk : 0 < k) (tbl : String → Option PerezTable) (f : ℕ → ℕ → Fl → Fl) (tilt az zen saz dni ghi dhi : Fl)
    (dni_extra airmass : Option Fl) (albedo : Fl) (st : Option String) (model model_perez : String) (dc : Bool) :
    getTotalIrradiance tbl f tilt az zen saz (fin k * dni) (fin k * ghi) (fin k * dhi) (dni_extra.map (fin k * ·)) airmass albedo st
        model model_perez dc =
      (getTotalIrradiance tbl f tilt az zen saz dni ghi dhi dni_extra airmass albedo st model model_perez dc).map (scalePoa k) := by
  unfold getTotalIrradiance
  rw [sky_scale hk]
  cases getSkyDiffuse tbl f tilt az zen saz dni ghi dhi dni_extra airmass model model_perez dc with
  | error e => rfl
  | ok s =>
    have hg : groundDiffuse tilt (fin k * ghi) albedo st = (groundDiffuse tilt ghi albedo st).map (fin k * ·) := by
      unfold groundDiffuse
      cases st with
      | none => simp only [sc_mul hk, Except.map]
      | some n => cases h : surfaceAlbedos.lookup n <;> simp only [h, sc_mul hk, Except.map]
    rw [hg]
    cases groundDiffuse tilt ghi albedo st with
    | error e => rfl
    | ok g =>
      show Except.ok _ = Except.ok _
      congr 1
      simp only [poaComponents, scalePoa, scaleSky, sc_mul hk, sc_max hk, sc_add hk]

example := total_scale (k := 2) (by norm_num) (fun _ => none) pdF 30 180 40 200 800 700 100 (some 1367) none 0.2 none "perez-driesse" "" true

end Pvlib.Props.Symmetry
end
