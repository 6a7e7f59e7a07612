import Verif.Props.Tracking

/-! # Property C197: symmetries of the single-axis tracker -/

noncomputable section
open scoped Classical
namespace Pvlib.Props.TrackerSymmetry
open Fl Pvlib.Tracking Pvlib.Tools Pvlib.Spec Pvlib.Props.Tracking Pvlib.Shading

/-- The result on one day-time row, as real numbers, with the direction the surface faces. -/
structure Row where
  (theta aoi tilt azimuth : ℝ)

/-- `o` is the row `r`, angles in the ranges `singleaxis` promises. -/
def IsRow (o : TrackerOut) (r : Row) : Prop :=
  o = ⟨fin r.theta, fin r.aoi, fin r.azimuth, fin r.tilt⟩ ∧ 0 ≤ r.aoi ∧ r.aoi ≤ 180 ∧ 0 ≤ r.tilt ∧ r.tilt ≤ 180 ∧ 0 ≤ r.azimuth ∧ r.azimuth < 360

private theorem day (zen saz tilt az gcr ct lo hi : ℝ) (bt : Bool) (hz : zen ≤ 90) (hg : gcr ≠ 0) (hc : cosDeg ct ≠ 0) (hl : lo ≤ hi) :
    ∃ r : Row, IsRow (singleaxis (fin zen) (fin saz) (fin tilt) (fin az) (.pair (fin lo) (fin hi)) bt (fin gcr) (fin ct)) r ∧
      r.theta = min (max (if bt then btTheta (psza zen saz tilt az) gcr ct else psza zen saz tilt az) lo) hi ∧
      dirVec r.tilt r.azimuth = trackerNormal r.theta tilt az ∧ cosDeg r.aoi = dot (trackerNormal r.theta tilt az) (dirVec zen saz) := by
  obtain ⟨t, a, s, z, h, h1, h2, h3⟩ := singleaxis_day zen saz tilt az gcr ct lo hi bt hz hg hc
  obtain ⟨-, r2, r3, r4⟩ := singleaxis_ranges (fin zen) (fin saz) (fin tilt) (fin az) (.pair (fin lo) (fin hi)) bt (fin gcr) (fin ct) lo hi rfl hl
  rw [h] at r2 r3 r4
  have un : ∀ (x : ℝ) (P : ℝ → Prop), NanOr (fin x) P → P x := by
    intro x P hx
    rcases hx with hx | ⟨y, hy, hp⟩
    · cases hx
    · cases hy; exact hp
  exact ⟨⟨t, a, s, z⟩, ⟨h, (un _ _ r4).1, (un _ _ r4).2, (un _ _ r2).1, (un _ _ r2).2, (un _ _ r3).1, (un _ _ r3).2⟩, h1, h2, h3⟩

private theorem same_angle {x y : ℝ} (hx : 0 ≤ x ∧ x ≤ 180) (hy : 0 ≤ y ∧ y ≤ 180) (h : cosDeg x = cosDeg y) : x = y :=
  le_antisymm (le_of_cosDeg_le hx.2 hy.1 h.ge) (le_of_cosDeg_le hy.2 hx.1 h.le)

private theorem sun_parts (zen saz tilt az : ℝ) : sunAcross zen saz az = sinDeg zen * sinDeg (saz - az) ∧
    sunNormal zen saz tilt az = sinDeg zen * cosDeg (saz - az) * sinDeg tilt + cosDeg zen * cosDeg tilt := by
  have e : (saz - az) * (Real.pi / 180) = saz * (Real.pi / 180) - az * (Real.pi / 180) := by ring
  constructor
  · unfold sunAcross
    rw [right_eq]
    simp only [dot, dirVec, cosDeg, sinDeg, e, Real.sin_sub]; ring
  · simp only [sunNormal, dot, dirVec, cosDeg, sinDeg, e, Real.cos_sub]; ring

private theorem normal_parts (t b a : ℝ) : trackerNormal t b a =
    ⟨cosDeg t * sinDeg b * sinDeg a + sinDeg t * cosDeg a, cosDeg t * sinDeg b * cosDeg a - sinDeg t * sinDeg a, cosDeg t * cosDeg b⟩ := by
  unfold trackerNormal
  dsimp only
  rw [right_eq]
  simp only [dirVec]
  congr 1 <;> ring

/-! ### Turning the compass -/

/-- **C197**: adding one angle to the azimuths of axis and sun leaves rotation, angle of incidence and surface tilt as they are, and adds that
angle to the surface azimuth (modulo 360; the azimuth of a surface facing straight down is not defined). -/
theorem turn (zen saz tilt az gcr ct lo hi d : ℝ) (bt : Bool) (hz : zen ≤ 90) (hg : gcr ≠ 0) (hc : cosDeg ct ≠ 0) (hl : lo ≤ hi) :
    ∃ r r' : Row, IsRow (singleaxis (fin zen) (fin saz) (fin tilt) (fin az) (.pair (fin lo) (fin hi)) bt (fin gcr) (fin ct)) r ∧
      IsRow (singleaxis (fin zen) (fin (saz + d)) (fin tilt) (fin (az + d)) (.pair (fin lo) (fin hi)) bt (fin gcr) (fin ct)) r' ∧
      r'.theta = r.theta ∧ r'.aoi = r.aoi ∧ r'.tilt = r.tilt ∧
      (sinDeg r.tilt ≠ 0 → ∃ k : ℤ, r'.azimuth = r.azimuth + d + 360 * k) := by
  obtain ⟨r, hr, t1, n1, c1⟩ := day zen saz tilt az gcr ct lo hi bt hz hg hc hl
  obtain ⟨r', hr', t2, n2, c2⟩ := day zen (saz + d) tilt (az + d) gcr ct lo hi bt hz hg hc hl
  have hp : psza zen (saz + d) tilt (az + d) = psza zen saz tilt az := by
    have e : saz + d - (az + d) = saz - az := by ring
    simp only [psza, (sun_parts zen (saz + d) tilt (az + d)).1, (sun_parts zen (saz + d) tilt (az + d)).2, e, (sun_parts zen saz tilt az).1,
      (sun_parts zen saz tilt az).2]
  have ht : r'.theta = r.theta := by rw [t1, t2, hp]
  have hz' : cosDeg r'.tilt = cosDeg r.tilt := by
    have a1 := congrArg Vec.z n1; have a2 := congrArg Vec.z n2
    rw [normal_parts] at a1 a2
    simp only [dirVec] at a1 a2
    rw [a1, a2, ht]
  have htilt : r'.tilt = r.tilt := same_angle ⟨hr'.2.2.2.1, hr'.2.2.2.2.1⟩ ⟨hr.2.2.2.1, hr.2.2.2.2.1⟩ hz'
  refine ⟨r, r', hr, hr', ht, ?_, htilt, ?_⟩
  · refine same_angle ⟨hr'.2.1, hr'.2.2.1⟩ ⟨hr.2.1, hr.2.2.1⟩ ?_
    rw [c1, c2, sun_dot_normal, sun_dot_normal, ht, hp]
    have e : saz + d - (az + d) = saz - az := by ring
    rw [(sun_parts zen (saz + d) tilt (az + d)).1, (sun_parts zen (saz + d) tilt (az + d)).2, e, (sun_parts zen saz tilt az).1,
      (sun_parts zen saz tilt az).2]
  · intro hs
    rw [ht] at n2
    have a1 := congrArg Vec.x n1; have a2 := congrArg Vec.x n2
    have b1 := congrArg Vec.y n1; have b2 := congrArg Vec.y n2
    rw [normal_parts] at a1 a2 b1 b2
    simp only [dirVec] at a1 a2 b1 b2
    rw [htilt] at a2 b2
    have hsin : sinDeg (az + d) = sinDeg az * cosDeg d + cosDeg az * sinDeg d := by
      simp only [sinDeg, cosDeg]; rw [← Real.sin_add]; congr 1; ring
    have hcos : cosDeg (az + d) = cosDeg az * cosDeg d - sinDeg az * sinDeg d := by
      simp only [sinDeg, cosDeg]; rw [← Real.cos_add]; congr 1; ring
    have rs : sinDeg (r.azimuth + d) = sinDeg r.azimuth * cosDeg d + cosDeg r.azimuth * sinDeg d := by
      simp only [sinDeg, cosDeg]; rw [← Real.sin_add]; congr 1; ring
    have rc : cosDeg (r.azimuth + d) = cosDeg r.azimuth * cosDeg d - sinDeg r.azimuth * sinDeg d := by
      simp only [sinDeg, cosDeg]; rw [← Real.cos_add]; congr 1; ring
    have es : sinDeg r'.azimuth = sinDeg (r.azimuth + d) := by
      apply mul_left_cancel₀ hs
      rw [rs]
      rw [hsin, hcos] at a2
      linear_combination a2 - cosDeg d * a1 - sinDeg d * b1
    have ec : cosDeg r'.azimuth = cosDeg (r.azimuth + d) := by
      apply mul_left_cancel₀ hs
      rw [rc]
      rw [hsin, hcos] at b2
      linear_combination b2 - cosDeg d * b1 + sinDeg d * a1
    obtain ⟨k, hk⟩ := (Real.Angle.angle_eq_iff_two_pi_dvd_sub).mp (Real.Angle.cos_sin_inj ec es)
    refine ⟨k, ?_⟩
    have hpi := Real.pi_pos
    field_simp at hk
    linarith

example := turn 60 90 10 180 0.4 5 (-50) 60 (-90) true (by norm_num) (by norm_num) (cosDeg_ne_of (by norm_num) (by norm_num)) (by norm_num)

/-! ### Left and right exchanged -/

/-- The projected zenith is 180 degrees only when the sun stands behind the plane of axis and horizontal, in the plane of the axis: the
hypothesis of the next theorems holds whenever the sun is not below that plane. -/
theorem not_behind {zen saz tilt az : ℝ} (h : 0 ≤ sunNormal zen saz tilt az) : psza zen saz tilt az ≠ 180 := by
  intro h'
  unfold psza at h'
  have hpi := Real.pi_pos
  have : Complex.arg ⟨sunNormal zen saz tilt az, sunAcross zen saz az⟩ = Real.pi := by field_simp at h'; linarith
  rw [Complex.arg_eq_pi_iff] at this
  exact absurd this.1 (not_lt.mpr h)

private theorem flat_front (saz az : ℝ) : psza 60 saz 0 az ≠ 180 := by
  apply not_behind
  rw [(sun_parts 60 saz 0 az).2]
  have s0 : sinDeg 0 = 0 := by simp [sinDeg]
  have c0 : cosDeg 0 = 1 := by simp [cosDeg]
  rw [s0, c0]
  have : 0 ≤ cosDeg 60 := by
    unfold cosDeg
    have hpi := Real.pi_pos
    exact Real.cos_nonneg_of_neg_pi_div_two_le_of_le (by linarith) (by linarith)
  linarith

private theorem bt_neg (w gcr ct : ℝ) : btTheta (-w) gcr (-ct) = -btTheta w gcr ct := by
  have e1 : cosDeg (-ct) = cosDeg ct := by simp [cosDeg]
  have e2 : cosDeg (-w - -ct) = cosDeg (w - ct) := by
    rw [show -w - -ct = -(w - ct) by ring]; simp only [cosDeg, neg_mul, Real.cos_neg]
  unfold btTheta
  dsimp only
  rw [e1, e2]
  split_ifs <;> first | linarith | ring

private theorem clip_neg (w lo hi : ℝ) (h : lo ≤ hi) : min (max (-w) (-hi)) (-lo) = -min (max w lo) hi := by
  rw [max_neg_neg, min_neg_neg, max_min_distrib_right, max_eq_left h, min_comm]

/-- What both exchanges share. -/
private theorem exchange {zen saz tilt az saz' tilt' az' gcr ct lo hi : ℝ} (bt : Bool) (hz : zen ≤ 90) (hg : gcr ≠ 0) (hc : cosDeg ct ≠ 0)
    (hl : lo ≤ hi) (hp : psza zen saz tilt az ≠ 180) (ha : sunAcross zen saz' az' = -sunAcross zen saz az)
    (hn : sunNormal zen saz' tilt' az' = sunNormal zen saz tilt az) (ht : cosDeg tilt' = cosDeg tilt) :
    ∃ r r' : Row, IsRow (singleaxis (fin zen) (fin saz) (fin tilt) (fin az) (.pair (fin lo) (fin hi)) bt (fin gcr) (fin ct)) r ∧
      IsRow (singleaxis (fin zen) (fin saz') (fin tilt') (fin az') (.pair (fin (-hi)) (fin (-lo))) bt (fin gcr) (fin (-ct))) r' ∧
      r'.theta = -r.theta ∧ r'.aoi = r.aoi ∧ r'.tilt = r.tilt ∧ dirVec r.tilt r.azimuth = trackerNormal r.theta tilt az ∧
      dirVec r.tilt r'.azimuth = trackerNormal (-r.theta) tilt' az' := by
  have hc' : cosDeg (-ct) ≠ 0 := by rwa [show cosDeg (-ct) = cosDeg ct by simp [cosDeg]]
  obtain ⟨r, hr, t1, n1, c1⟩ := day zen saz tilt az gcr ct lo hi bt hz hg hc hl
  obtain ⟨r', hr', t2, n2, c2⟩ := day zen saz' tilt' az' gcr (-ct) (-hi) (-lo) bt hz hg hc' (neg_le_neg hl)
  have hconj : (⟨sunNormal zen saz' tilt' az', sunAcross zen saz' az'⟩ : ℂ) =
      (starRingEnd ℂ) ⟨sunNormal zen saz tilt az, sunAcross zen saz az⟩ := by
    rw [ha, hn]; rfl
  have hps : psza zen saz' tilt' az' = -psza zen saz tilt az := by
    unfold psza at hp ⊢
    rw [hconj, Complex.arg_conj, if_neg, neg_mul]
    intro h
    rw [h] at hp
    apply hp
    field_simp
  have hth : r'.theta = -r.theta := by
    rw [t1, t2, hps, bt_neg]
    have : (if bt = true then -btTheta (psza zen saz tilt az) gcr ct else -psza zen saz tilt az) =
        -(if bt = true then btTheta (psza zen saz tilt az) gcr ct else psza zen saz tilt az) := by split_ifs <;> rfl
    rw [this, clip_neg _ _ _ hl]
  have hz' : cosDeg r'.tilt = cosDeg r.tilt := by
    have a1 := congrArg Vec.z n1; have a2 := congrArg Vec.z n2
    rw [normal_parts] at a1 a2
    simp only [dirVec] at a1 a2
    rw [a1, a2, hth, ht]
    simp [cosDeg]
  have htilt : r'.tilt = r.tilt := same_angle ⟨hr'.2.2.2.1, hr'.2.2.2.2.1⟩ ⟨hr.2.2.2.1, hr.2.2.2.2.1⟩ hz'
  refine ⟨r, r', hr, hr', hth, ?_, htilt, n1, by rw [← htilt, n2, hth]⟩
  refine same_angle ⟨hr'.2.1, hr'.2.2.1⟩ ⟨hr.2.1, hr.2.2.1⟩ ?_
  rw [c1, c2, sun_dot_normal, sun_dot_normal, hth, hps, hconj, Complex.norm_conj]
  congr 1
  rw [show -r.theta - -psza zen saz tilt az = -(r.theta - psza zen saz tilt az) by ring]
  simp only [cosDeg, neg_mul, Real.cos_neg]

/-- Two azimuths in [0, 360) of the same direction are equal, unless it points straight up or down. -/
private theorem az_unique {t a b : ℝ} (hs : sinDeg t ≠ 0) (ha : 0 ≤ a ∧ a < 360) (hb : 0 ≤ b ∧ b < 360)
    (h : dirVec t a = dirVec t b) : a = b := by
  have h1 := congrArg Vec.x h; have h2 := congrArg Vec.y h
  simp only [dirVec] at h1 h2
  obtain ⟨k, hk⟩ := (Real.Angle.angle_eq_iff_two_pi_dvd_sub).mp
    (Real.Angle.cos_sin_inj (mul_left_cancel₀ hs h2) (mul_left_cancel₀ hs h1))
  have hpi := Real.pi_pos
  have hk' : a - b = 360 * k := by field_simp at hk; linarith
  have l1 : (k : ℝ) < 1 := by linarith [ha.2, hb.1]
  have l2 : (-1 : ℝ) < k := by linarith [ha.1, hb.2]
  have : k = 0 := by
    have : k < 1 := by exact_mod_cast l1
    have : -1 < k := by exact_mod_cast l2
    omega
  rw [this] at hk'
  push_cast at hk'
  linarith

/-- **C197**: describing the same tracker by the opposite end of its axis (azimuth + 180, tilt and cross-axis tilt negated, limits
exchanged) gives the same surface orientation and angle of incidence, and the opposite rotation - with and without backtracking.
(The azimuth of a horizontal surface is a convention that depends on the axis.) -/
theorem reverse_axis (zen saz tilt az gcr ct lo hi : ℝ) (bt : Bool) (hz : zen ≤ 90) (hg : gcr ≠ 0) (hc : cosDeg ct ≠ 0) (hl : lo ≤ hi)
    (hp : psza zen saz tilt az ≠ 180) :
    ∃ r r' : Row, IsRow (singleaxis (fin zen) (fin saz) (fin tilt) (fin az) (.pair (fin lo) (fin hi)) bt (fin gcr) (fin ct)) r ∧
      IsRow (singleaxis (fin zen) (fin saz) (fin (-tilt)) (fin (az + 180)) (.pair (fin (-hi)) (fin (-lo))) bt (fin gcr) (fin (-ct))) r' ∧
      r'.theta = -r.theta ∧ r'.aoi = r.aoi ∧ r'.tilt = r.tilt ∧ (sinDeg r.tilt ≠ 0 → r'.azimuth = r.azimuth) := by
  have e : (saz - (az + 180)) * (Real.pi / 180) = (saz - az) * (Real.pi / 180) - Real.pi := by ring
  have s180 : sinDeg (saz - (az + 180)) = -sinDeg (saz - az) := by simp only [sinDeg, e, Real.sin_sub_pi]
  have c180 : cosDeg (saz - (az + 180)) = -cosDeg (saz - az) := by simp only [cosDeg, e, Real.cos_sub_pi]
  have sn : sinDeg (-tilt) = -sinDeg tilt := by simp [sinDeg]
  have cn : cosDeg (-tilt) = cosDeg tilt := by simp [cosDeg]
  obtain ⟨r, r', hr, hr', h1, h2, h3, n1, n2⟩ := exchange (saz' := saz) (tilt' := -tilt) (az' := az + 180) bt hz hg hc hl hp
    (by rw [(sun_parts zen saz (-tilt) (az + 180)).1, (sun_parts zen saz tilt az).1, s180]; ring)
    (by rw [(sun_parts zen saz (-tilt) (az + 180)).2, (sun_parts zen saz tilt az).2, c180, sn, cn]; ring) cn
  refine ⟨r, r', hr, hr', h1, h2, h3, fun hs => ?_⟩
  refine az_unique hs hr'.2.2.2.2.2 hr.2.2.2.2.2 ?_
  rw [n1, n2, normal_parts, normal_parts, sn, cn]
  have ea : (az + 180) * (Real.pi / 180) = az * (Real.pi / 180) + Real.pi := by ring
  simp only [sinDeg, cosDeg, ea, Real.sin_add_pi, Real.cos_add_pi, neg_mul, Real.sin_neg, Real.cos_neg]
  congr 1 <;> ring

example := reverse_axis 60 100 0 180 0.4 5 (-50) 60 true (by norm_num) (by norm_num) (cosDeg_ne_of (by norm_num) (by norm_num))
  (by norm_num) (flat_front 100 180)

/-- **C197**: mornings are afternoons mirrored: with the sun mirrored on the vertical plane through the axis (cross-axis tilt negated, limits
exchanged) the rotation is opposite, incidence and tilt are equal, and the surface azimuth is mirrored (modulo 360). -/
theorem mirror (zen saz tilt az gcr ct lo hi : ℝ) (bt : Bool) (hz : zen ≤ 90) (hg : gcr ≠ 0) (hc : cosDeg ct ≠ 0) (hl : lo ≤ hi)
    (hp : psza zen saz tilt az ≠ 180) :
    ∃ r r' : Row, IsRow (singleaxis (fin zen) (fin saz) (fin tilt) (fin az) (.pair (fin lo) (fin hi)) bt (fin gcr) (fin ct)) r ∧
      IsRow (singleaxis (fin zen) (fin (2 * az - saz)) (fin tilt) (fin az) (.pair (fin (-hi)) (fin (-lo))) bt (fin gcr) (fin (-ct))) r' ∧
      r'.theta = -r.theta ∧ r'.aoi = r.aoi ∧ r'.tilt = r.tilt ∧ (sinDeg r.tilt ≠ 0 → ∃ k : ℤ, r'.azimuth = 2 * az - r.azimuth + 360 * k) := by
  have e : 2 * az - saz - az = -(saz - az) := by ring
  have sn : sinDeg (-(saz - az)) = -sinDeg (saz - az) := by simp only [sinDeg, neg_mul, Real.sin_neg]
  have cn : cosDeg (-(saz - az)) = cosDeg (saz - az) := by simp only [cosDeg, neg_mul, Real.cos_neg]
  obtain ⟨r, r', hr, hr', h1, h2, h3, n1, n2⟩ := exchange (saz' := 2 * az - saz) (tilt' := tilt) (az' := az) bt hz hg hc hl hp
    (by rw [(sun_parts zen (2 * az - saz) tilt az).1, (sun_parts zen saz tilt az).1, e, sn]; ring)
    (by rw [(sun_parts zen (2 * az - saz) tilt az).2, (sun_parts zen saz tilt az).2, e, cn]) rfl
  refine ⟨r, r', hr, hr', h1, h2, h3, fun hs => ?_⟩
  have a1 := congrArg Vec.x n1; have a2 := congrArg Vec.x n2
  have b1 := congrArg Vec.y n1; have b2 := congrArg Vec.y n2
  rw [normal_parts] at a1 a2 b1 b2
  simp only [dirVec] at a1 a2 b1 b2
  have st : sinDeg (-r.theta) = -sinDeg r.theta := by simp [sinDeg]
  have ct' : cosDeg (-r.theta) = cosDeg r.theta := by simp [cosDeg]
  rw [st, ct'] at a2 b2
  have hsq := Real.sin_sq_add_cos_sq (az * (Real.pi / 180))
  have em : (2 * az - r.azimuth) * (Real.pi / 180) = 2 * (az * (Real.pi / 180)) - r.azimuth * (Real.pi / 180) := by ring
  have rs : sinDeg (2 * az - r.azimuth) = 2 * sinDeg az * cosDeg az * cosDeg r.azimuth - (cosDeg az ^ 2 - sinDeg az ^ 2) * sinDeg r.azimuth := by
    simp only [sinDeg, cosDeg, em, Real.sin_sub, Real.sin_two_mul, Real.cos_two_mul']
  have rc : cosDeg (2 * az - r.azimuth) = (cosDeg az ^ 2 - sinDeg az ^ 2) * cosDeg r.azimuth + 2 * sinDeg az * cosDeg az * sinDeg r.azimuth := by
    simp only [sinDeg, cosDeg, em, Real.cos_sub, Real.sin_two_mul, Real.cos_two_mul']
  have hsq' : sinDeg az ^ 2 + cosDeg az ^ 2 = 1 := hsq
  have es : sinDeg r'.azimuth = sinDeg (2 * az - r.azimuth) := by
    apply mul_left_cancel₀ hs
    rw [rs]
    linear_combination a2 - 2 * sinDeg az * cosDeg az * b1 + (cosDeg az ^ 2 - sinDeg az ^ 2) * a1 -
      (cosDeg r.theta * sinDeg tilt * sinDeg az - sinDeg r.theta * cosDeg az) * hsq'
  have ec : cosDeg r'.azimuth = cosDeg (2 * az - r.azimuth) := by
    apply mul_left_cancel₀ hs
    rw [rc]
    linear_combination b2 - 2 * sinDeg az * cosDeg az * a1 - (cosDeg az ^ 2 - sinDeg az ^ 2) * b1 -
      (cosDeg r.theta * sinDeg tilt * cosDeg az + sinDeg r.theta * sinDeg az) * hsq'
  obtain ⟨k, hk⟩ := (Real.Angle.angle_eq_iff_two_pi_dvd_sub).mp (Real.Angle.cos_sin_inj ec es)
  refine ⟨k, ?_⟩
  have hpi := Real.pi_pos
  field_simp at hk
  linarith

example := mirror 60 100 0 180 0.4 5 (-50) 60 true (by norm_num) (by norm_num) (cosDeg_ne_of (by norm_num) (by norm_num))
  (by norm_num) (flat_front 100 180)

end Pvlib.Props.TrackerSymmetry
end
