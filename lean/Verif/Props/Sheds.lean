import Verif.Props.TrigValues
import Verif.Props.BifacialRow
import Verif.Props.BifacialStrings
import Verif.Props.Geometry
import Verif.Props.Tracking

/-! # C131-C133: infinite sheds -/

noncomputable section
open Fl Classical
open scoped Real

namespace Pvlib.Props.Sheds

open Pvlib.Bifacial Pvlib.Tools Pvlib.Irradiance Pvlib.Spec Pvlib.Props.BifacialShadow Pvlib.Props.Geometry

/-! ### Specification -/

/-- Projection of the sun onto the plane across the rows: tangent of the angle from vertical. -/
def tanAcross (az z saz : ℝ) : ℝ := cosDeg (saz - az) * Real.tan (z * (π / 180))

/-- Width of the shadow of one row on the ground, in pitches (negative if the sun is behind the row). -/
def shadowWidth (β az z saz gcr : ℝ) : ℝ := gcr * (cosDeg β + sinDeg β * tanAcross az z saz)

/-- The sun's angle across the rows, in degrees. -/
def angleAcross (az z saz : ℝ) : ℝ := Real.arctan (tanAcross az z saz) * (180 / π)

/-- The sun is neither too low for the ground fraction to be computed, nor are the default ten rows too few. -/
def Seen (β az z saz gcr : ℝ) : Prop :=
  |angleAcross az z saz| ≤ 85 ∧ gcr * |tanAcross az z saz| + |shadowWidth β az z saz gcr| / 2 ≤ 11

/-! ### Geometry -/

theorem tangent_fin (az z saz : ℝ) (hz : cosDeg z ≠ 0) :
    solarProjectionTangent (fin z) (fin saz) (fin az) = fin (tanAcross az z saz) := by
  unfold solarProjectionTangent tand
  rw [radians_fin, tan_fin', if_neg hz, fin_sub, cosd_fin, fin_mul]
  rfl

theorem phi_fin (T : ℝ) : atand (fin T) = fin (Real.arctan T * (180 / π)) := rfl

theorem tan_angleAcross (az z saz : ℝ) : Real.tan (angleAcross az z saz * (π / 180)) = tanAcross az z saz := by
  unfold angleAcross
  rw [Tracking.deg_rad, Real.tan_arctan]

theorem cos_angleAcross (az z saz : ℝ) : 0 < Real.cos (angleAcross az z saz * (π / 180)) := by
  unfold angleAcross
  rw [Tracking.deg_rad]
  exact Real.cos_arctan_pos _

theorem dot_eq (β az z saz : ℝ) (hz : cosDeg z ≠ 0) :
    dot (dirVec β az) (dirVec z saz) = cosDeg z * (cosDeg β + sinDeg β * tanAcross az z saz) := by
  have hd : dot (dirVec β az) (dirVec z saz) =
      cosDeg β * cosDeg z + sinDeg β * sinDeg z * cosDeg (saz - az) := by
    simp only [dot, dirVec, cosDeg, sinDeg, sub_mul, Real.cos_sub]; ring
  rw [hd]
  unfold tanAcross
  rw [Real.tan_eq_sin_div_cos]
  have hz' : Real.cos (z * (π / 180)) ≠ 0 := hz
  unfold cosDeg sinDeg
  generalize Real.cos (z * (π / 180)) = cz at *
  field_simp

/-- The fraction of a row in the shade of the row in front. -/
theorem shaded_fin (β az z saz gcr : ℝ) (hz : cosDeg z ≠ 0) :
    shedsShadedFraction (fin z) (fin saz) (fin β) (fin az) (fin gcr) =
      fin (if 1 < shadowWidth β az z saz gcr then
        (if 0 < dot (dirVec β az) (dirVec z saz) then 1 - 1 / shadowWidth β az z saz gcr else 1) else 0) := by
  obtain ⟨r, hr, h0, h1, hc⟩ := aoi_spec β az z saz
  have hx : fin gcr * (sind (fin β) * fin (tanAcross az z saz) + cosd (fin β)) = fin (shadowWidth β az z saz gcr) := by
    rw [sind_fin, cosd_fin, fin_mul, fin_add, fin_mul, fin_inj]
    unfold shadowWidth; ring
  unfold shedsShadedFraction
  dsimp only
  rw [tangent_fin az z saz hz, hx, hr, one_eq, fin_lt]
  by_cases h : 1 < shadowWidth β az z saz gcr
  · rw [npwhere_pos h, if_pos h, fin_div (by linarith), fin_sub]
    have hiff : ((fin r : Fl) < 90) ↔ 0 < dot (dirVec β az) (dirVec z saz) := by
      rw [ofNat_eq, fin_lt, ← hc]
      have hp := Real.pi_pos
      constructor
      · intro h2
        exact Real.cos_pos_of_mem_Ioo ⟨by nlinarith, by nlinarith⟩
      · intro h2
        by_contra h3
        push Not at h3
        have : cosDeg r ≤ 0 := Real.cos_nonpos_of_pi_div_two_le_of_le (by nlinarith) (by nlinarith)
        linarith
    by_cases h2 : 0 < dot (dirVec β az) (dirVec z saz)
    · rw [npwhere_pos (hiff.mpr h2), if_pos h2]
    · rw [npwhere_neg (fun h3 => h2 (hiff.mp h3)), if_neg h2]
  · rw [npwhere_neg h, if_neg h, zero_eq]

/-- **C131a.** The shaded fraction lies in [0, 1]; with the sun in front of the row it is what is left of the row
when one pitch of light is cast on it, and 0 when the shadow is narrower than the pitch. -/
theorem shaded_range (β az z saz gcr : ℝ) (hz : cosDeg z ≠ 0) :
    ∃ f, shedsShadedFraction (fin z) (fin saz) (fin β) (fin az) (fin gcr) = fin f ∧ 0 ≤ f ∧ f ≤ 1 ∧
      (shadowWidth β az z saz gcr ≤ 1 → f = 0) ∧
      (1 < shadowWidth β az z saz gcr → 0 < dot (dirVec β az) (dirVec z saz) → (1 - f) * shadowWidth β az z saz gcr = 1) := by
  refine ⟨_, shaded_fin β az z saz gcr hz, ?_, ?_, ?_, ?_⟩
  · split_ifs with h1 h2
    · rw [sub_nonneg, div_le_one (by linarith)]; exact h1.le
    · exact zero_le_one
    · exact le_rfl
  · split_ifs with h1 h2
    · have : 0 ≤ 1 / shadowWidth β az z saz gcr := div_nonneg zero_le_one (by linarith)
      linarith
    · exact le_rfl
    · exact zero_le_one
  · intro h; rw [if_neg (not_lt.mpr h)]
  · intro h h2; rw [if_pos h, if_pos h2]
    have : shadowWidth β az z saz gcr ≠ 0 := by linarith
    field_simp
    ring

example := shaded_range 30 180 45 170 0.4 (cosDeg_ne_of (by norm_num) (by norm_num))

/-! ### The two sides -/

/-- **C131b.** The other side of a row has the opposite normal. -/
theorem backside_normal (β az : ℝ) :
    ∃ β' az', backside (fin β) (fin az) = (fin β', fin az') ∧
      dirVec β' az' = ⟨-(dirVec β az).x, -(dirVec β az).y, -(dirVec β az).z⟩ ∧ β' = 180 - β ∧ 0 ≤ az' ∧ az' < 360 := by
  refine ⟨180 - β, 180 + az - 360 * ⌊(180 + az) / 360⌋, ?_, ?_, rfl, ?_, ?_⟩
  · unfold backside
    rw [ofNat_eq, ofNat_eq, fin_sub, fin_add, mod_fin (by norm_num)]
  · have h1 : sinDeg (180 - β) = sinDeg β := by
      unfold sinDeg; rw [show (180 - β) * (π / 180) = π - β * (π / 180) by ring, Real.sin_pi_sub]
    have h2 : cosDeg (180 - β) = -cosDeg β := by
      unfold cosDeg; rw [show (180 - β) * (π / 180) = π - β * (π / 180) by ring, Real.cos_pi_sub]
    have h3 : sinDeg (180 + az) = -sinDeg az := by
      unfold sinDeg; rw [show (180 + az) * (π / 180) = az * (π / 180) + π by ring, Real.sin_add_pi]
    have h4 : cosDeg (180 + az) = -cosDeg az := by
      unfold cosDeg; rw [show (180 + az) * (π / 180) = az * (π / 180) + π by ring, Real.cos_add_pi]
    unfold dirVec
    rw [Tracking.sinDeg_mod, Tracking.cosDeg_mod, h1, h2, h3, h4]
    ext <;> dsimp only <;> ring
  · have := Int.floor_le ((180 + az) / 360)
    have := (le_div_iff₀ (by norm_num : (0:ℝ) < 360)).mp this
    linarith
  · have := Int.lt_floor_add_one ((180 + az) / 360)
    have := (div_lt_iff₀ (by norm_num : (0:ℝ) < 360)).mp this
    linarith

private theorem shadowWidth_back (β az az' z saz gcr : ℝ) (hz : cosDeg z ≠ 0)
    (hn : dirVec (180 - β) az' = ⟨-(dirVec β az).x, -(dirVec β az).y, -(dirVec β az).z⟩) :
    shadowWidth (180 - β) az' z saz gcr = - shadowWidth β az z saz gcr := by
  have h1 := dot_eq (180 - β) az' z saz hz
  have h2 := dot_eq β az z saz hz
  have h3 : dot (dirVec (180 - β) az') (dirVec z saz) = - dot (dirVec β az) (dirVec z saz) := by
    rw [hn]; simp only [dot]; ring
  rw [h3, h2] at h1
  have h4 : cosDeg (180 - β) + sinDeg (180 - β) * tanAcross az' z saz = -(cosDeg β + sinDeg β * tanAcross az z saz) := by
    have : cosDeg z * (cosDeg (180 - β) + sinDeg (180 - β) * tanAcross az' z saz) =
        cosDeg z * -(cosDeg β + sinDeg β * tanAcross az z saz) := by linarith
    exact mul_left_cancel₀ hz this
  unfold shadowWidth
  rw [h4]; ring

/-- The direct light on one side. -/
theorem direct_fin (β az z saz gcr dni iam : ℝ) (height pitch ghi dhi albedo : Fl) (hz : 0 < cosDeg z) (hg : 0 < gcr) (hd : 0 ≤ dni) :
    (shedsSide (fin β) (fin az) (fin z) (fin saz) (fin gcr) height pitch ghi dhi (fin dni) albedo (fin iam)).poa_direct =
      fin (dni * cosDeg z * (max 0 (min 1 (shadowWidth β az z saz gcr)) / gcr) * iam) := by
  unfold shedsSide
  dsimp only
  rw [shaded_fin β az z saz gcr hz.ne', beam_value, dot_eq β az z saz hz.ne', one_eq, fin_sub, fin_mul, fin_mul, fin_inj]
  have hw : cosDeg z * (cosDeg β + sinDeg β * tanAcross az z saz) = cosDeg z * (shadowWidth β az z saz gcr / gcr) := by
    unfold shadowWidth; field_simp
  rw [hw]
  set x := shadowWidth β az z saz gcr
  congr 1
  rcases le_or_gt x 0 with h | h
  · rw [if_neg (by linarith), min_eq_right (by linarith), max_eq_left h]
    have : dni * (cosDeg z * (x / gcr)) ≤ 0 :=
      mul_nonpos_of_nonneg_of_nonpos hd (mul_nonpos_of_nonneg_of_nonpos hz.le (div_nonpos_of_nonpos_of_nonneg h hg.le))
    rw [max_eq_right this]; simp
  · have hnn : 0 ≤ dni * (cosDeg z * (x / gcr)) := by positivity
    rw [max_eq_left hnn]
    rcases le_or_gt x 1 with h1 | h1
    · rw [if_neg (not_lt.mpr h1), min_eq_right h1, max_eq_right h.le]; ring
    · have hpos : 0 < cosDeg z * (x / gcr) := by positivity
      rw [if_pos h1, if_pos hpos, min_eq_left h1.le, max_eq_right zero_le_one]
      field_simp
      ring

example (h p g d a : Fl) := direct_fin 30 180 45 170 0.4 800 0.98 h p g d a (cosDeg_pos_of (by norm_num) (by norm_num)) (by norm_num)
  (by norm_num)

theorem ground_fraction (β az z saz gcr : ℝ) (hg : 0 < gcr) (hs : Seen β az z saz gcr) :
    unshadedGroundFraction (fin β) (fin (angleAcross az z saz)) (fin gcr) nan nan =
      fin (max 0 (1 - |shadowWidth β az z saz gcr|)) := by
  have e : unshadedGroundFraction (fin β) (fin (angleAcross az z saz)) (fin gcr) nan nan =
      unshadedGroundFraction (fin β) (fin (angleAcross az z saz)) (fin gcr) (fin 1) (fin 1) := by
    unfold unshadedGroundFraction; rw [if_pos ⟨rfl, rfl⟩, if_pos ⟨rfl, rfl⟩]
  have hw : |shadowWidth β az z saz gcr| = gcr * |cosDeg β + sinDeg β * tanAcross az z saz| := by
    unfold shadowWidth; rw [abs_mul, abs_of_pos hg]
  have h2 := hs.2
  rw [hw] at h2
  rw [e, fraction_closed_form β _ gcr 1 1 10 hg (by norm_num) (cos_angleAcross az z saz).ne' hs.1
    (by rw [tan_angleAcross]; push_cast; linarith), tan_angleAcross, hw]

/-- **C131c.** No direct light is lost or counted twice: per pitch of ground, what the front of a row receives, what its
back receives and what reaches the ground between the rows add up to the direct light on the horizontal. -/
theorem beam_conserved (β az z saz gcr dni : ℝ) (height pitch ghi dhi albedo : Fl) (hz : 0 < cosDeg z) (hg : 0 < gcr)
    (hd : 0 ≤ dni) (hs : Seen β az z saz gcr) :
    ∃ β' az' df db f, backside (fin β) (fin az) = (fin β', fin az') ∧
      (shedsSide (fin β) (fin az) (fin z) (fin saz) (fin gcr) height pitch ghi dhi (fin dni) albedo 1).poa_direct = fin df ∧
      (shedsSide (fin β') (fin az') (fin z) (fin saz) (fin gcr) height pitch ghi dhi (fin dni) albedo 1).poa_direct = fin db ∧
      unshadedGroundFraction (fin β) (atand (solarProjectionTangent (fin z) (fin saz) (fin az))) (fin gcr) nan nan = fin f ∧
      gcr * df + gcr * db + f * (dni * cosDeg z) = dni * cosDeg z ∧ 0 ≤ df ∧ 0 ≤ db ∧ (df = 0 ∨ db = 0) := by
  obtain ⟨β', az', hb, hn, hβ, -, -⟩ := backside_normal β az
  subst hβ
  have hw := shadowWidth_back β az az' z saz gcr hz.ne' hn
  refine ⟨180 - β, az', _, _, max 0 (1 - |shadowWidth β az z saz gcr|), hb, direct_fin β az z saz gcr dni 1 height pitch ghi dhi albedo hz hg hd,
    direct_fin (180 - β) az' z saz gcr dni 1 height pitch ghi dhi albedo hz hg hd, ?_, ?_, ?_, ?_, ?_⟩
  · rw [tangent_fin az z saz hz.ne', phi_fin]
    exact ground_fraction β az z saz gcr hg hs
  · rw [hw]
    set x := shadowWidth β az z saz gcr
    have key : max 0 (min 1 x) + max 0 (min 1 (-x)) + max 0 (1 - |x|) = 1 := by
      rcases le_total 0 x with h | h
      · rw [abs_of_nonneg h]
        rcases le_total x 1 with h1 | h1
        · rw [min_eq_right h1, max_eq_right h, min_eq_right (by linarith), max_eq_left (by linarith), max_eq_right (by linarith)]; ring
        · rw [min_eq_left h1, max_eq_right zero_le_one, min_eq_right (by linarith), max_eq_left (by linarith), max_eq_left (by linarith)]; ring
      · rw [abs_of_nonpos h]
        rcases le_total (-x) 1 with h1 | h1
        · rw [min_eq_right (by linarith), max_eq_left h, min_eq_right h1, max_eq_right (by linarith), max_eq_right (by linarith)]; ring
        · rw [min_eq_right (by linarith), max_eq_left h, min_eq_left h1, max_eq_right zero_le_one, max_eq_left (by linarith)]; ring
    have e : ∀ y : ℝ, gcr * (dni * cosDeg z * (y / gcr) * 1) = dni * cosDeg z * y := by intro y; field_simp
    rw [e, e]
    linear_combination (dni * cosDeg z) * key
  · have : 0 ≤ max 0 (min 1 (shadowWidth β az z saz gcr)) := le_max_left _ _
    positivity
  · have : 0 ≤ max 0 (min 1 (shadowWidth (180 - β) az' z saz gcr)) := le_max_left _ _
    positivity
  · rw [hw]
    rcases le_total (shadowWidth β az z saz gcr) 0 with h | h
    · left; rw [min_eq_right (by linarith), max_eq_left h]; simp
    · right; rw [min_eq_right (by linarith), max_eq_left (by linarith)]; simp

/-- The conditions hold: 30° towards the south, sun in the south at 45°, 40 % of the ground covered. -/
theorem demo_seen : Seen 30 180 45 180 0.4 := by
  have h45 : (45:ℝ) * (π / 180) = π / 4 := by ring
  have h30 : (30:ℝ) * (π / 180) = π / 6 := by ring
  have ht : tanAcross 180 45 180 = 1 := by
    unfold tanAcross; rw [h45, Real.tan_pi_div_four]; simp [cosDeg]
  have h3 : Real.sqrt 3 ≤ 2 := by rw [Real.sqrt_le_left (by norm_num)]; norm_num
  refine ⟨?_, ?_⟩
  · unfold angleAcross
    rw [ht, Real.arctan_one, show π / 4 * (180 / π) = 45 by field_simp; norm_num]
    norm_num [abs_le]
  · unfold shadowWidth
    rw [ht]
    unfold cosDeg sinDeg
    rw [h30, Real.cos_pi_div_six, Real.sin_pi_div_six, abs_of_pos one_pos, abs_of_pos (by positivity)]
    norm_num; linarith

example := ground_fraction 30 180 45 180 0.4 (by norm_num) demo_seen

/-! ### All components -/

theorem sky_whole (β gcr : ℝ) (hg : 0 < gcr) (hβ : 0 ≤ β) :
    ∃ v, vfRowSky2dInteg (fin β) (fin gcr) 0 1 = fin v ∧ 0 ≤ v ∧ v ≤ 1 := by
  have := BifacialRow.integ_fin β gcr 0 1 hg (by norm_num) hβ
  refine ⟨_, this, ?_⟩
  have ha : 0 < 1 / gcr := by positivity
  have h1 : BifacialRow.poly β gcr (-(1 - 1)) = 1 / gcr := by
    unfold BifacialRow.poly
    rw [sub_self, neg_zero, mul_zero, mul_zero, add_zero, add_zero, Real.sqrt_mul_self ha.le]
  have hc := abs_le.mp (Real.abs_cos_le_one (β * (π / 180)))
  have h2 : BifacialRow.poly β gcr (-(1 - 0)) ≤ 1 / gcr + 1 := by
    unfold BifacialRow.poly
    rw [Real.sqrt_le_left (by positivity)]
    nlinarith
  have h3 : 1 / gcr - 1 ≤ BifacialRow.poly β gcr (-(1 - 0)) := by
    unfold BifacialRow.poly
    apply Real.le_sqrt_of_sq_le
    nlinarith
  rw [h1]
  norm_num at *
  constructor <;> linarith

theorem ground_whole (β gcr : ℝ) (hg : 0 < gcr) :
    ∃ v, vfRowGround2dInteg (fin β) (fin gcr) nan nan 0 1 20 0 1 = fin v ∧ 0 ≤ v := by
  rw [BifacialStrings.row_ground_whole (fin β) (fin gcr) nan nan (fin 1) (fin 1) 20]
  exact BifacialStrings.row_ground_integ_nonneg β gcr 1 1 0 1 0 1 20 one_pos hg zero_lt_one

/-- **C132a.** For valid input all components are finite and not negative; the global irradiance is the sum of direct,
sky and ground-reflected irradiance, and the shaded fraction lies in [0, 1]. -/
theorem side_nonneg (β az z saz gcr h pitch ghi dhi dni albedo iam : ℝ) (hz : 0 < cosDeg z) (hg : 0 < gcr) (hβ : 0 ≤ β) (hp : 0 < pitch)
    (hd : 0 ≤ dni) (hdh : 0 ≤ dhi) (hgh : dhi ≤ ghi) (ha : 0 ≤ albedo) (hi : 0 ≤ iam) :
    ∃ G D F R S f : ℝ,
      shedsSide (fin β) (fin az) (fin z) (fin saz) (fin gcr) (fin h) (fin pitch) (fin ghi) (fin dhi) (fin dni) (fin albedo) (fin iam) =
        { poa_global := fin G, poa_direct := fin D, poa_diffuse := fin F, poa_ground_diffuse := fin R, poa_sky_diffuse := fin S
          shaded_fraction := fin f } ∧
      G = D + S + R ∧ F = R + S ∧ 0 ≤ D ∧ 0 ≤ R ∧ 0 ≤ S ∧ S ≤ dhi ∧ 0 ≤ f ∧ f ≤ 1 := by
  obtain ⟨vs, hs, hs0, hs1⟩ := sky_whole β gcr hg hβ
  obtain ⟨vg, hvg, hvg0⟩ := ground_whole β gcr hg
  obtain ⟨f, hf, hf0, hf1, -⟩ := shaded_range β az z saz gcr hz.ne'
  obtain ⟨vk, hvk, hvk0⟩ := BifacialStrings.ground_sky_integ_nonneg β gcr h pitch 0 1 (maxRows (fin h) (fin pitch) 5) hp zero_lt_one
  obtain ⟨u, hu, hu0, hu1, -⟩ := fraction_range β (angleAcross az z saz) gcr 1 (1 / gcr) 85 0 1 10 (by positivity) zero_lt_one
    (cos_angleAcross az z saz).ne'
  have hu' : unshadedGroundFraction (fin β) (atand (solarProjectionTangent (fin z) (fin saz) (fin az))) (fin gcr) nan nan = fin u := by
    rw [tangent_fin az z saz hz.ne', phi_fin]
    unfold unshadedGroundFraction
    rw [if_pos ⟨rfl, rfl⟩, one_eq, fin_div hg.ne']
    exact hu
  have hD := direct_fin β az z saz gcr dni iam (fin h) (fin pitch) (fin ghi) (fin dhi) (fin albedo) hz hg hd
  have hD0 : 0 ≤ dni * cosDeg z * (max 0 (min 1 (shadowWidth β az z saz gcr)) / gcr) * iam := by
    have : 0 ≤ max 0 (min 1 (shadowWidth β az z saz gcr)) := le_max_left _ _
    positivity
  set D := dni * cosDeg z * (max 0 (min 1 (shadowWidth β az z saz gcr)) / gcr) * iam
  unfold shedsSide at hD
  dsimp only at hD
  have hgr : poaGroundShadows (fin ghi) (fin dhi) (fin albedo) (fin u) (fin vk) = fin (albedo * (u * (ghi - dhi) + vk * dhi)) := rfl
  refine ⟨D + (albedo * (u * (ghi - dhi) + vk * dhi) * vg + dhi * vs), D, albedo * (u * (ghi - dhi) + vk * dhi) * vg + dhi * vs,
    albedo * (u * (ghi - dhi) + vk * dhi) * vg, dhi * vs, f, ?_, by ring, rfl, hD0, ?_, by positivity, ?_, hf0, hf1⟩
  · unfold shedsSide
    dsimp only
    rw [hD, hf, hs, hvg, hu']
    rw [show vfGroundSky2dInteg (fin β) (fin gcr) (fin h) (fin pitch) (maxRows (fin h) (fin pitch) 5) 0 1 = fin vk from hvk, hgr]
    simp only [fin_mul, fin_add]
  · have : 0 ≤ u * (ghi - dhi) := mul_nonneg hu0 (by linarith)
    positivity
  · exact mul_le_of_le_one_right hdh hs1

example := side_nonneg 30 180 45 170 0.4 1.5 5 600 100 800 0.2 0.98 (cosDeg_pos_of (by norm_num) (by norm_num)) (by norm_num)
  (by norm_num) (by norm_num) (by norm_num) (by norm_num) (by norm_num) (by norm_num) (by norm_num)

/-- With no albedo there is no reflected light; with no light at all nothing is received. -/
theorem side_dark (β az z saz gcr h pitch albedo iam : ℝ) (hz : 0 < cosDeg z) (hg : 0 < gcr) (hβ : 0 ≤ β) (hp : 0 < pitch)
    (ha : 0 ≤ albedo) (hi : 0 ≤ iam) :
    (shedsSide (fin β) (fin az) (fin z) (fin saz) (fin gcr) (fin h) (fin pitch) 0 0 0 (fin albedo) (fin iam)).poa_global = 0 := by
  obtain ⟨vs, hs, hs0, hs1⟩ := sky_whole β gcr hg hβ
  obtain ⟨vg, hvg, hvg0⟩ := ground_whole β gcr hg
  obtain ⟨vk, hvk, hvk0⟩ := BifacialStrings.ground_sky_integ_nonneg β gcr h pitch 0 1 (maxRows (fin h) (fin pitch) 5) hp zero_lt_one
  obtain ⟨u, hu, hu0, hu1, -⟩ := fraction_range β (angleAcross az z saz) gcr 1 (1 / gcr) 85 0 1 10 (by positivity) zero_lt_one
    (cos_angleAcross az z saz).ne'
  have hu' : unshadedGroundFraction (fin β) (atand (solarProjectionTangent (fin z) (fin saz) (fin az))) (fin gcr) nan nan = fin u := by
    rw [tangent_fin az z saz hz.ne', phi_fin]
    unfold unshadedGroundFraction
    rw [if_pos ⟨rfl, rfl⟩, one_eq, fin_div hg.ne']
    exact hu
  have hD := direct_fin β az z saz gcr 0 iam (fin h) (fin pitch) 0 0 (fin albedo) hz hg le_rfl
  rw [zero_mul, zero_mul, zero_mul] at hD
  unfold shedsSide at hD ⊢
  dsimp only at hD ⊢
  rw [show (0 : Fl) = fin 0 from rfl] at *
  rw [hD, hs, hvg, hu', show vfGroundSky2dInteg (fin β) (fin gcr) (fin h) (fin pitch) (maxRows (fin h) (fin pitch) 5) (fin 0) 1 = fin vk from hvk]
  unfold poaGroundShadows
  simp only [fin_mul, fin_add, fin_sub]
  congr 1; ring

example := side_dark 30 180 45 170 0.4 1.5 5 0.2 0.98 (cosDeg_pos_of (by norm_num) (by norm_num)) (by norm_num)
  (by norm_num) (by norm_num) (by norm_num) (by norm_num)

/-! ### Circumsolar light -/

private theorem circ_eq (t a dhi dni e z saz : Fl) :
    circumsolar (haydavies t a dhi dni e z saz) = maximum (dhi * (dni / e * projectionRatio t a z saz)) 0 := by
  unfold circumsolar haydavies haydaviesRb
  dsimp only
  rw [List.lookup_cons, List.lookup_cons]
  simp

/-- **C132b.** Moving the circumsolar part of the diffuse light to the beam keeps the light on the horizontal: for a sun
above the horizon, `dni' cos(z) + dhi' = dni cos(z) + dhi`. -/
theorem circumsolar_conserved (z saz dhi dni e : ℝ) (hz : 0 ≤ cosDeg z) (hdh : 0 ≤ dhi) (hd : 0 ≤ dni) (he : 0 < e) :
    ∃ dni' dhi', moveCircumsolar (fun t a => haydavies t a (fin dhi) (fin dni) (fin e) (fin z) (fin saz)) (fin z) (fin saz) (fin dhi) (fin dni) =
        (fin dni', fin dhi') ∧
      dni' * cosDeg z + dhi' = dni * cosDeg z + dhi ∧ dni ≤ dni' ∧ dhi' ≤ dhi ∧ (dni ≤ e → 0 ≤ dhi') := by
  have hm : 0 < max (cosDeg z) 0.01745 := lt_max_of_lt_right (by norm_num)
  have hr : ∀ t a : ℝ, projectionRatio (fin t) (fin a) (fin z) (fin saz) =
      fin (max (dot (dirVec t a) (dirVec z saz)) 0 / max (cosDeg z) 0.01745) := by
    intro t a
    unfold projectionRatio
    dsimp only
    rw [aoiProjection_dot, zero_eq, maximum_fin, cosd_fin, Fl.ofScientific_eq, maximum_fin, fin_div hm.ne']
  have h1 : dot (dirVec z saz) (dirVec z saz) = 1 := dot_dirVec_self z saz
  have h2 : dot (dirVec 0 180) (dirVec z saz) = cosDeg z := by simp [dot, dirVec, cosDeg, sinDeg]
  set m := max (cosDeg z) 0.01745
  have hcm : cosDeg z ≤ m := le_max_left _ _
  refine ⟨dni + dhi * (dni / e * (1 / m)), dhi - dhi * (dni / e * (cosDeg z / m)), ?_, ?_, ?_, ?_, ?_⟩
  · unfold moveCircumsolar
    dsimp only
    rw [circ_eq, circ_eq, show (0 : Fl) = fin 0 from rfl, show (180 : Fl) = fin 180 from rfl, hr, hr, h1, h2, fin_div he.ne',
      max_eq_left zero_le_one, max_eq_left hz]
    simp only [fin_mul, maximum_fin, fin_add, fin_sub]
    rw [max_eq_left (by positivity), max_eq_left (by positivity)]
  · field_simp
    ring
  · have : 0 ≤ dhi * (dni / e * (1 / m)) := by positivity
    linarith
  · have : 0 ≤ dhi * (dni / e * (cosDeg z / m)) := by positivity
    linarith
  · intro hle
    have h3 : dni / e ≤ 1 := by rw [div_le_one he]; exact hle
    have h4 : cosDeg z / m ≤ 1 := by rw [div_le_one hm]; exact hcm
    have h5 : dni / e * (cosDeg z / m) ≤ 1 := mul_le_one₀ h3 (by positivity) h4
    have := mul_le_of_le_one_right hdh h5
    linarith

example := circumsolar_conserved 45 170 100 800 1367 (cosDeg_pos_of (by norm_num) (by norm_num)).le (by norm_num) (by norm_num)
  (by norm_num)

/-! ### Choice of sky model, both sides -/

/-- **C133a.** The Hay-Davies model needs the extraterrestrial irradiance; every other name, known or not, is treated as
isotropic. -/
theorem model_choice (β az z saz gcr h pitch ghi dhi dni albedo iam : Fl) (model : String) (e : Option Fl) :
    (shedsGetIrradiancePoa β az z saz gcr h pitch ghi dhi dni albedo model e iam = .error .valueError ↔ model = "haydavies" ∧ e = none) ∧
    (model ≠ "haydavies" → shedsGetIrradiancePoa β az z saz gcr h pitch ghi dhi dni albedo model e iam =
      .ok (shedsSide β az z saz gcr h pitch ghi dhi dni albedo iam)) ∧
    (∀ e', shedsGetIrradiancePoa β az z saz gcr h pitch ghi dhi dni albedo "haydavies" (some e') iam =
      .ok (shedsSide β az z saz gcr h pitch ghi
        (moveCircumsolar (fun t a => haydavies t a dhi dni e' z saz) z saz dhi dni).2
        (moveCircumsolar (fun t a => haydavies t a dhi dni e' z saz) z saz dhi dni).1 albedo iam)) := by
  unfold shedsGetIrradiancePoa
  refine ⟨?_, ?_, ?_⟩
  · by_cases h : model = "haydavies"
    · cases e <;> simp [h]
    · simp [h]
  · intro h; rw [if_neg h]
  · intro e'; rw [if_pos rfl]

/-- **C133b.** The two-sided result: both sides as computed one by one, and the total adds the back weighted by
bifaciality, shade and transmission. -/
theorem both_sides (β az z saz gcr h pitch ghi dhi dni albedo : Fl) (model : String) (e : Option Fl) (i1 i2 b s t : Fl) (r : Bifacial) :
    shedsGetIrradiance β az z saz gcr h pitch ghi dhi dni albedo model e i1 i2 b s t = .ok r ↔
      shedsGetIrradiancePoa β az z saz gcr h pitch ghi dhi dni albedo model e i1 = .ok r.front ∧
      shedsGetIrradiancePoa (backside β az).1 (backside β az).2 z saz gcr h pitch ghi dhi dni albedo model e i2 = .ok r.back ∧
      r.poa_global = r.front.poa_global + r.back.poa_global * b * ((1 + s) * (1 + t)) := by
  unfold shedsGetIrradiance
  dsimp only
  cases hf : shedsGetIrradiancePoa β az z saz gcr h pitch ghi dhi dni albedo model e i1 with
  | error x => simp [Except.bind]
  | ok f =>
    cases hb : shedsGetIrradiancePoa (backside β az).1 (backside β az).2 z saz gcr h pitch ghi dhi dni albedo model e i2 with
    | error x => simp [Except.bind]
    | ok k =>
      simp only [Except.bind, Except.ok.injEq]
      constructor
      · rintro rfl; exact ⟨rfl, rfl, rfl⟩
      · rintro ⟨rfl, rfl, h3⟩
        cases r; simp only at h3; simp [h3]

/-- A monofacial module (bifaciality 0) gets the front irradiance only. -/
theorem monofacial (β az z saz gcr h pitch ghi dhi dni albedo : Fl) (model : String) (e : Option Fl) (i1 i2 : Fl) (s t : ℝ) (r : Bifacial)
    (hr : shedsGetIrradiance β az z saz gcr h pitch ghi dhi dni albedo model e i1 i2 0 (fin s) (fin t) = .ok r)
    (hfin : ∃ f k : ℝ, r.front.poa_global = fin f ∧ r.back.poa_global = fin k) : r.poa_global = r.front.poa_global := by
  obtain ⟨-, -, h3⟩ := (both_sides β az z saz gcr h pitch ghi dhi dni albedo model e i1 i2 0 (fin s) (fin t) r).mp hr
  obtain ⟨f, k, h1, h2⟩ := hfin
  rw [h3, h1, h2, zero_eq, one_eq]
  simp

example : ∃ r, shedsGetIrradiance (fin 30) (fin 180) (fin 45) (fin 170) (fin 0.4) (fin 1.5) (fin 5) (fin 600) (fin 100) (fin 800) (fin 0.2)
    "isotropic" none (fin 0.98) (fin 0.97) 0 (fin 0.1) (fin 0.05) = .ok r ∧ r.poa_global = r.front.poa_global := by
  refine ⟨_, rfl, monofacial (fin 30) (fin 180) (fin 45) (fin 170) (fin 0.4) (fin 1.5) (fin 5) (fin 600) (fin 100) (fin 800) (fin 0.2)
    "isotropic" none (fin 0.98) (fin 0.97) 0.1 0.05 _ rfl ?_⟩
  obtain ⟨G, D, F, R, S, f, h, -⟩ := side_nonneg 30 180 45 170 0.4 1.5 5 600 100 800 0.2 0.98 (cosDeg_pos_of (by norm_num) (by norm_num))
    (by norm_num) (by norm_num) (by norm_num) (by norm_num) (by norm_num) (by norm_num) (by norm_num) (by norm_num)
  obtain ⟨G', D', F', R', S', f', h', -⟩ := side_nonneg 150 0 45 170 0.4 1.5 5 600 100 800 0.2 0.97
    (cosDeg_pos_of (by norm_num) (by norm_num))
    (by norm_num) (by norm_num) (by norm_num) (by norm_num) (by norm_num) (by norm_num) (by norm_num) (by norm_num)
  have hb : backside (fin 30) (fin 180) = (fin 150, fin 0) := by
    simp only [backside, Fl.ofNat_eq, fin_sub, fin_add]
    norm_num
  simp only [hb]
  exact ⟨G, G', by rw [h], by rw [h']⟩

end Pvlib.Props.Sheds
end
