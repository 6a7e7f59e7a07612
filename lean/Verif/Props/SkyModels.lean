import Verif.Props.Transposition

/-! # Property C239: how the sky models compare -/

noncomputable section
open scoped Classical
open Real
namespace Pvlib.Props.SkyModels
open Fl Pvlib.Irradiance Pvlib.Tools Pvlib.Spec Pvlib.Props.Geometry Pvlib.Props.Transposition

/-! ### Specification -/

/-- A plane (tilt and azimuth), the position of the sun (zenith and azimuth), direct, global and diffuse light and extraterrestrial radiation. -/
structure Scene where
  (tilt az zen saz dni ghi dhi extra : ℝ)

/-- The plane is between face up and face down, the sun is up, light is not negative, some light is direct on the horizontal or none (diffuse light is part of the global),
and direct light is at most the extraterrestrial. -/
structure Scene.Lit (s : Scene) : Prop where
  tilt : 0 ≤ s.tilt ∧ s.tilt ≤ 180
  sun : 0 ≤ s.zen ∧ s.zen ≤ 90
  diffuse : 0 ≤ s.dhi ∧ s.dhi ≤ s.ghi
  global : 0 < s.ghi
  direct : 0 ≤ s.dni ∧ s.dni ≤ s.extra
  extra : 0 < s.extra

/-- Part of the sky in view of the plane. -/
def Scene.view (s : Scene) : ℝ := (1 + cosDeg s.tilt) / 2

/-- The beam on the plane over the beam on the horizontal (the sun taken to be at least a degree above it). -/
def Scene.ratio (s : Scene) : ℝ := max (dot (dirVec s.tilt s.az) (dirVec s.zen s.saz)) 0 / max (cosDeg s.zen) 0.01745

/-- Direct over extraterrestrial light: the part of the diffuse light that comes from around the sun. -/
def Scene.aniso (s : Scene) : ℝ := s.dni / s.extra

/-- Sky diffuse light on the plane by a model. -/
def Sky (s : Scene) (model : String) (v : ℝ) : Prop := ∀ tbl f am mp, ∃ y,
  getSkyDiffuse tbl f (fin s.tilt) (fin s.az) (fin s.zen) (fin s.saz) (fin s.dni) (fin s.ghi) (fin s.dhi) (some (fin s.extra)) am model mp false = .ok y ∧ y.poa_sky_diffuse = fin v

/-! ### Values -/

variable {s : Scene}

private theorem view_nonneg (s : Scene) : 0 ≤ s.view ∧ s.view ≤ 1 := by
  have h1 := Real.neg_one_le_cos (s.tilt * (π / 180))
  have h2 := Real.cos_le_one (s.tilt * (π / 180))
  unfold Scene.view cosDeg
  constructor <;> linarith

private theorem sun_pos (s : Scene) : 0 < max (cosDeg s.zen) 0.01745 := lt_of_lt_of_le (by norm_num) (le_max_right _ _)

private theorem ratio_nonneg (s : Scene) : 0 ≤ s.ratio := div_nonneg (le_max_right _ _) (sun_pos s).le

private theorem aniso_range (h : s.Lit) : 0 ≤ s.aniso ∧ s.aniso ≤ 1 :=
  ⟨div_nonneg h.direct.1 h.extra.le, (div_le_one h.extra).mpr h.direct.2⟩

private theorem ratio_value (s : Scene) : projectionRatio (fin s.tilt) (fin s.az) (fin s.zen) (fin s.saz) = fin s.ratio := by
  unfold projectionRatio
  dsimp only
  rw [aoiProjection_dot, cosd_fin, zero_eq, maximum_fin, ofScientific_eq, maximum_fin]
  exact fin_div (sun_pos s).ne'

/-- **C239**: the isotropic sky: diffuse light times the part of the sky in view. -/
theorem isotropic_sky (s : Scene) : Sky s "isotropic" (s.dhi * s.view) := by
  intro tbl f am mp
  unfold getSkyDiffuse
  rw [show pyLower "isotropic" = "isotropic" by decide +kernel]
  dsimp only
  rw [if_neg (by simp), if_neg (by simp), if_pos rfl]
  refine ⟨_, rfl, ?_⟩
  simp only [isotropic, cosd_fin, one_eq, fin_add, fin_mul, ofScientific_eq, Bool.false_eq_true, if_false, fin_inj, cosDeg, Scene.view]
  norm_num
  ring

/-- **C239**: Hay and Davies: the part around the sun as the beam, the rest isotropic. -/
theorem haydavies_sky (h : s.Lit) : Sky s "haydavies" (s.dhi * ((1 - s.aniso) * s.view + s.aniso * s.ratio)) := by
  intro tbl f am mp
  unfold getSkyDiffuse
  rw [show pyLower "haydavies" = "haydavies" by decide +kernel]
  dsimp only
  rw [if_neg (by simp), if_neg (by simp), if_neg (by decide), if_neg (by decide), if_pos rfl]
  refine ⟨_, rfl, ?_⟩
  have a := aniso_range h
  have v := view_nonneg s
  have r := ratio_nonneg s
  have d := h.diffuse.1
  have half : (0.5 : ℝ) * (1 + Real.cos (s.tilt * (π / 180))) = s.view := by unfold Scene.view cosDeg; norm_num; ring
  simp only [haydavies, haydaviesRb, ratio_value, Option.getD_some, fin_div h.extra.ne', one_eq, zero_eq, fin_sub, fin_mul, cosd_fin, fin_add,
      ofScientific_eq, maximum_fin, Bool.false_eq_true, if_false, fin_inj]
  rw [half, show s.dni / s.extra = s.aniso from rfl, max_eq_left, max_eq_left]
  · ring
  · have := a.1; positivity
  · have : 0 ≤ 1 - s.aniso := by linarith
    have := v.1
    positivity

/-- What Reindl adds for the brightening of the horizon. -/
def Scene.horizon (s : Scene) : ℝ := Real.sqrt (max (s.dni * cosDeg s.zen) 0 / s.ghi) * sinDeg (s.tilt / 2) ^ 3

/-- **C239**: Reindl: as Hay and Davies, with a brighter horizon. -/
theorem reindl_sky (h : s.Lit) : Sky s "reindl" (s.dhi * ((1 - s.aniso) * s.view * (1 + s.horizon) + s.aniso * s.ratio)) := by
  intro tbl f am mp
  unfold getSkyDiffuse
  rw [show pyLower "reindl" = "reindl" by decide +kernel]
  dsimp only
  rw [if_neg (by simp), if_neg (by simp), if_neg (by decide), if_neg (by decide), if_neg (by decide), if_pos rfl]
  refine ⟨_, rfl, ?_⟩
  have g := h.global
  have hH : npwhere (eqv (fin s.ghi) 0) 0 (maximum (fin s.dni * cosd (fin s.zen)) 0 / fin s.ghi) = fin (max (s.dni * cosDeg s.zen) 0 / s.ghi) := by
    rw [cosd_fin, fin_mul, zero_eq, maximum_fin, fin_div g.ne']
    have ne : ¬ eqv (fin s.ghi) (fin 0) := by simp [eqv, g.ne']
    exact npwhere_neg ne _ _
  dsimp only [reindl]
  rw [hH, ratio_value, sqrt_fin (div_nonneg (le_max_right _ _) g.le)]
  simp only [Option.getD_some, fin_div h.extra.ne', ofNat_eq, one_eq, fin_sub, cosd_fin, fin_add, fin_div (show (2 : ℝ) ≠ 0 by norm_num),
      sind_fin, fin_mul, Bool.false_eq_true, if_false, fin_pow, fin_inj]
  simp only [Scene.horizon, Scene.view, Scene.aniso, cosDeg, sinDeg]
  ring

/-- Klucher's measure of the clarity of the sky. -/
def Scene.clarity (s : Scene) : ℝ := 1 - (s.dhi / s.ghi) ^ 2

/-- **C239**: Klucher: isotropic, brightened towards the horizon and around the sun as the sky is clear. -/
theorem klucher_sky (h : s.Lit) : Sky s "klucher" (s.dhi * s.view * (1 + s.clarity * sinDeg (s.tilt / 2) ^ 3) *
    (1 + s.clarity * max (dot (dirVec s.tilt s.az) (dirVec s.zen s.saz)) 0 ^ 2 * sinDeg s.zen ^ 3)) := by
  intro tbl f am mp
  unfold getSkyDiffuse
  rw [show pyLower "klucher" = "klucher" by decide +kernel]
  dsimp only
  rw [if_neg (by simp), if_neg (by simp), if_neg (by decide), if_pos rfl]
  refine ⟨_, rfl, ?_⟩
  have g := h.global
  have hF : npwhere (isnan (1 - (fin s.dhi / fin s.ghi) ^ 2)) 0 (1 - (fin s.dhi / fin s.ghi) ^ 2) = fin s.clarity := by
    rw [fin_div g.ne', fin_pow, one_eq, fin_sub]
    have ne : ∀ x : ℝ, ¬ isnan (fin x) := fun x => by simp
    exact npwhere_neg (ne _) _ _
  dsimp only [klucher]
  rw [hF, aoiProjection_dot]
  simp only [cosd_fin, sind_fin, one_eq, zero_eq, fin_add, fin_mul, ofScientific_eq, maximum_fin, fin_pow, fin_inj, cosDeg, sinDeg, Scene.view]
  rw [show (0.5 : ℝ) = 1 / 2 by norm_num, show 1 / 2 * s.tilt * (π / 180) = s.tilt / 2 * (π / 180) by ring]
  ring

/-- **C239**: King: isotropic, and a part of the global light that grows with the sun's zenith on what the plane does not see of the sky. -/
theorem king_sky (s : Scene) : Sky s "king" (max (s.dhi * s.view + s.ghi * (0.012 * s.zen - 0.04) * (1 - s.view)) 0) := by
  intro tbl f am mp
  unfold getSkyDiffuse
  rw [show pyLower "king" = "king" by decide +kernel]
  dsimp only
  rw [if_neg (by simp), if_neg (by simp), if_neg (by decide), if_neg (by decide), if_neg (by decide), if_neg (by decide), if_pos rfl]
  refine ⟨_, rfl, ?_⟩
  simp only [king, cosd_fin, one_eq, zero_eq, ofNat_eq, ofScientific_eq, fin_add, fin_sub, fin_mul, fin_div (show (2 : ℝ) ≠ 0 by norm_num), maximum_fin, fin_inj, Scene.view,
    cosDeg]
  congr 1
  norm_num
  ring

/-! ### Comparisons -/

private theorem sin_half (h : s.Lit) : 0 ≤ sinDeg (s.tilt / 2) ∧ sinDeg (s.tilt / 2) ≤ 1 := by
  have := h.tilt
  refine ⟨?_, Real.sin_le_one _⟩
  unfold sinDeg
  have := Real.pi_pos
  exact Real.sin_nonneg_of_nonneg_of_le_pi (by have := h.tilt.1; positivity) (by nlinarith [h.tilt.2])

private theorem horizon_range (h : s.Lit) : 0 ≤ s.horizon := by
  have := (sin_half h).1
  unfold Scene.horizon
  positivity

/-- **C239a.** Klucher's sky gives no less than the isotropic one and at most four times as much. -/
theorem klucher_vs_isotropic (h : s.Lit) : ∃ i k, Sky s "isotropic" i ∧ Sky s "klucher" k ∧ i ≤ k ∧ k ≤ 4 * i := by
  refine ⟨_, _, isotropic_sky s, klucher_sky h, ?_⟩
  have d := h.diffuse
  have g := h.global
  have q0 : 0 ≤ s.dhi / s.ghi := div_nonneg d.1 g.le
  have q1 : s.dhi / s.ghi ≤ 1 := (div_le_one g).mpr d.2
  have c0 : 0 ≤ s.clarity := by unfold Scene.clarity; nlinarith
  have c1 : s.clarity ≤ 1 := by unfold Scene.clarity; nlinarith [sq_nonneg (s.dhi / s.ghi)]
  obtain ⟨u0, u1⟩ := sin_half h
  have w0 : 0 ≤ sinDeg s.zen := by
    unfold sinDeg
    have := Real.pi_pos
    exact Real.sin_nonneg_of_nonneg_of_le_pi (by have := h.sun.1; positivity) (by nlinarith [h.sun.2])
  have w1 : sinDeg s.zen ≤ 1 := Real.sin_le_one _
  have m0 : 0 ≤ max (dot (dirVec s.tilt s.az) (dirVec s.zen s.saz)) 0 := le_max_right _ _
  have m1 : max (dot (dirVec s.tilt s.az) (dirVec s.zen s.saz)) 0 ≤ 1 := max_le (abs_le.mp (dot_dirVec_le _ _ _ _)).2 zero_le_one
  generalize max (dot (dirVec s.tilt s.az) (dirVec s.zen s.saz)) 0 = m at *
  have p : 0 ≤ s.dhi * s.view := mul_nonneg d.1 (view_nonneg s).1
  have x0 : 0 ≤ s.clarity * sinDeg (s.tilt / 2) ^ 3 := by positivity
  have x1 : s.clarity * sinDeg (s.tilt / 2) ^ 3 ≤ 1 := mul_le_one₀ c1 (by positivity) (pow_le_one₀ u0 u1)
  have y0 : 0 ≤ s.clarity * m ^ 2 * sinDeg s.zen ^ 3 := by positivity
  have y1 : s.clarity * m ^ 2 * sinDeg s.zen ^ 3 ≤ 1 :=
    mul_le_one₀ (mul_le_one₀ c1 (by positivity) (pow_le_one₀ m0 m1)) (by positivity) (pow_le_one₀ w0 w1)
  generalize s.clarity * sinDeg (s.tilt / 2) ^ 3 = x at *
  generalize s.clarity * m ^ 2 * sinDeg s.zen ^ 3 = y at *
  generalize s.dhi * s.view = i at *
  have e : 1 ≤ (1 + x) * (1 + y) := by nlinarith [mul_nonneg x0 y0]
  have e' : (1 + x) * (1 + y) ≤ 4 := by nlinarith [mul_nonneg (sub_nonneg.mpr x1) (sub_nonneg.mpr y1)]
  rw [mul_assoc]
  exact ⟨le_mul_of_one_le_right p e, by nlinarith⟩

/-- **C239b.** Hay and Davies' sky gives more than the isotropic one exactly where the beam gains more from the tilt than the plane loses of the sky; away from the sun it
gives the isotropic light without the part around the sun. -/
theorem haydavies_vs_isotropic (h : s.Lit) : ∃ i k, Sky s "isotropic" i ∧ Sky s "haydavies" k ∧ (s.view ≤ s.ratio → i ≤ k) ∧ (s.ratio ≤ s.view → k ≤ i) ∧
    (0 < s.dhi → 0 < s.dni → s.view < s.ratio → i < k) ∧ (0 < s.dhi → 0 < s.dni → s.ratio < s.view → k < i) ∧
    (dot (dirVec s.tilt s.az) (dirVec s.zen s.saz) ≤ 0 → k = (1 - s.dni / s.extra) * i) := by
  refine ⟨_, _, isotropic_sky s, haydavies_sky h, ?_⟩
  have d := h.diffuse.1
  obtain ⟨a0, -⟩ := aniso_range h
  have e : s.dhi * ((1 - s.aniso) * s.view + s.aniso * s.ratio) = s.dhi * s.view + s.dhi * s.aniso * (s.ratio - s.view) := by ring
  rw [e]
  refine ⟨fun k => ?_, fun k => ?_, fun k k' l => ?_, fun k k' l => ?_, fun k => ?_⟩
  · have := mul_nonneg (mul_nonneg d a0) (sub_nonneg.mpr k)
    linarith
  · have := mul_nonneg (mul_nonneg d a0) (sub_nonneg.mpr k)
    linarith
  · have := mul_pos (mul_pos k (show 0 < s.aniso from div_pos k' h.extra)) (sub_pos.mpr l)
    linarith
  · have := mul_pos (mul_pos k (show 0 < s.aniso from div_pos k' h.extra)) (sub_pos.mpr l)
    linarith
  · rw [Scene.ratio, max_eq_right k, zero_div, Scene.aniso]
    ring

/-- **C239c.** Reindl's sky gives no less than Hay and Davies', and the same for a horizontal plane or without direct light. -/
theorem reindl_vs_haydavies (h : s.Lit) : ∃ k r, Sky s "haydavies" k ∧ Sky s "reindl" r ∧ k ≤ r ∧ (s.tilt = 0 ∨ s.dni = 0 → k = r) := by
  refine ⟨_, _, haydavies_sky h, reindl_sky h, ?_, fun k => ?_⟩
  · have d := h.diffuse.1
    obtain ⟨a0, a1⟩ := aniso_range h
    have := mul_nonneg (mul_nonneg d (mul_nonneg (sub_nonneg.mpr a1) (view_nonneg s).1)) (horizon_range h)
    linarith
  · have : s.horizon = 0 := by
      unfold Scene.horizon
      rcases k with k | k
      · simp [k, sinDeg]
      · simp [k]
    rw [this]
    ring

/-- **C239d.** King's sky gives no less than the isotropic one from a zenith of 3.34 degrees on, and no more up to 3.33. -/
theorem king_vs_isotropic (h : s.Lit) : ∃ i k, Sky s "isotropic" i ∧ Sky s "king" k ∧ (3.34 ≤ s.zen → i ≤ k) ∧ (s.zen ≤ 3.33 → k ≤ i) := by
  obtain ⟨v0, v1⟩ := view_nonneg s
  have g := h.global.le
  have d := h.diffuse.1
  refine ⟨_, _, isotropic_sky s, king_sky s, fun k => ?_, fun k => ?_⟩
  · refine le_max_of_le_left ?_
    have := mul_nonneg (mul_nonneg g (show (0 : ℝ) ≤ 0.012 * s.zen - 0.04 by linarith)) (sub_nonneg.mpr v1)
    linarith
  · refine max_le ?_ (mul_nonneg d v0)
    have := mul_nonneg (mul_nonneg g (show (0 : ℝ) ≤ -(0.012 * s.zen - 0.04) by linarith)) (sub_nonneg.mpr v1)
    linarith

/-- **C239e.** Direct light and light from the ground do not depend on the model of the sky: what a model gives more of sky diffuse light it gives more of global light on the
plane. -/
theorem global_follows {m m' : String} {v v' : ℝ} (h : Sky s m v) (h' : Sky s m' v') (tbl : String → Option PerezTable) (f : ℕ → ℕ → Fl → Fl) (am : Option Fl)
    (mp : String) (albedo : ℝ) : ∃ p p' G G', getTotalIrradiance tbl f (fin s.tilt) (fin s.az) (fin s.zen) (fin s.saz) (fin s.dni) (fin s.ghi) (fin s.dhi) (some (fin s.extra)) am (fin albedo)
        none m mp false = .ok p ∧
      getTotalIrradiance tbl f (fin s.tilt) (fin s.az) (fin s.zen) (fin s.saz) (fin s.dni) (fin s.ghi) (fin s.dhi) (some (fin s.extra)) am (fin albedo) none m' mp false = .ok p' ∧
      p.poa_global = fin G ∧ p'.poa_global = fin G' ∧ G' - G = v' - v ∧ p.poa_direct = p'.poa_direct ∧ p.poa_ground_diffuse = p'.poa_ground_diffuse := by
  obtain ⟨y, h1, h2⟩ := h tbl f am mp
  obtain ⟨y', h1', h2'⟩ := h' tbl f am mp
  obtain ⟨x, hx, -⟩ := aoi_spec s.tilt s.az s.zen s.saz
  simp only [getTotalIrradiance, h1, h1', groundDiffuse, bind, Except.bind, pure, Except.pure]
  refine ⟨_, _, max (s.dni * Real.cos (x * (π / 180))) 0 + (v + s.ghi * albedo * (1 - cosDeg s.tilt) * 0.5),
    max (s.dni * Real.cos (x * (π / 180))) 0 + (v' + s.ghi * albedo * (1 - cosDeg s.tilt) * 0.5), rfl, rfl, ?_, ?_, by ring, rfl, rfl⟩
  · simp only [poaComponents, h2, hx, radians_fin, cos_fin, ofScientific_eq, one_eq, zero_eq, fin_mul, fin_sub, fin_add, maximum_fin, cosDeg]
  · simp only [poaComponents, h2', hx, radians_fin, cos_fin, ofScientific_eq, one_eq, zero_eq, fin_mul, fin_sub, fin_add, maximum_fin, cosDeg]

/-- A plane tilted by 30 degrees to the south on a clear morning. -/
example : (Scene.mk 30 180 60 120 700 500 150 1400).Lit := by constructor <;> norm_num
example := klucher_vs_isotropic (s := ⟨30, 180, 60, 120, 700, 500, 150, 1400⟩) (by constructor <;> norm_num)
example := reindl_vs_haydavies (s := ⟨30, 180, 60, 120, 700, 500, 150, 1400⟩) (by constructor <;> norm_num)

/-- Facing the sun the circumsolar light gains, facing away it is lost. -/
example : ∃ i k, Sky ⟨90, 0, 60, 180, 700, 500, 150, 1400⟩ "isotropic" i ∧ Sky ⟨90, 0, 60, 180, 700, 500, 150, 1400⟩ "haydavies" k ∧ k = (1 - 700 / 1400) * i := by
  obtain ⟨i, k, h1, h2, -, -, -, -, h3⟩ := haydavies_vs_isotropic (s := ⟨90, 0, 60, 180, 700, 500, 150, 1400⟩) (by constructor <;> norm_num)
  refine ⟨i, k, h1, h2, h3 ?_⟩
  have e1 : (90 : ℝ) * (π / 180) = π / 2 := by ring
  have e2 : (180 : ℝ) * (π / 180) = π := by ring
  have := Real.sin_nonneg_of_nonneg_of_le_pi (show (0 : ℝ) ≤ 60 * (π / 180) by positivity) (by have := Real.pi_pos; linarith)
  simp only [dot, dirVec, cosDeg, sinDeg, e1, e2, Real.cos_pi_div_two, Real.sin_pi_div_two, Real.cos_pi, Real.sin_pi, zero_mul, Real.cos_zero, Real.sin_zero]
  linarith

end Pvlib.Props.SkyModels
end
