import Verif.Props.BifacialRow
import Verif.Props.BifacialShadow
import Verif.Props.Tracking
import Verif.Props.Shading

/-! # Property C236: denser rows -/

noncomputable section
open scoped Classical
open Real
namespace Pvlib.Props.DenseRows
open Fl Pvlib.Tools Pvlib.Shading Pvlib.Tracking Pvlib.Spec Pvlib.Props.Tracking Pvlib.Props.Shading Pvlib.Props.BifacialRow Pvlib.Bifacial

/-! ### Trackers -/

private theorem btTheta_denser {w gcr gcr' ct : ℝ} (hg : 0 < gcr) (hgg : gcr ≤ gcr') :
    (0 ≤ w → btTheta w gcr' ct ≤ btTheta w gcr ct) ∧ (w ≤ 0 → btTheta w gcr ct ≤ btTheta w gcr' ct) := by
  have hpi := Real.pi_pos
  have ht : |1 / (gcr' * cosDeg ct) * cosDeg (w - ct)| ≤ |1 / (gcr * cosDeg ct) * cosDeg (w - ct)| := by
    rw [abs_mul, abs_mul]
    refine mul_le_mul_of_nonneg_right ?_ (abs_nonneg _)
    rw [abs_div, abs_div, abs_mul, abs_mul, abs_of_pos hg, abs_of_pos (hg.trans_le hgg), abs_one]
    rcases (abs_nonneg (cosDeg ct)).eq_or_lt with h | h
    · rw [← h, mul_zero, mul_zero]
    · exact one_div_le_one_div_of_le (mul_pos hg h) (mul_le_mul_of_nonneg_right hgg h.le)
  unfold btTheta
  dsimp only
  set x := |1 / (gcr * cosDeg ct) * cosDeg (w - ct)|
  set y := |1 / (gcr' * cosDeg ct) * cosDeg (w - ct)|
  have ha : Real.arccos x * (180 / π) ≤ Real.arccos y * (180 / π) :=
    mul_le_mul_of_nonneg_right (Real.arccos_le_arccos ht) (by positivity)
  have hx : 0 ≤ Real.arccos x * (180 / π) := mul_nonneg (Real.arccos_nonneg _) (by positivity)
  constructor <;> intro hw <;> split_ifs <;> linarith

/-- The rotation reported for a sun above the horizon. -/
def rotation (zen saz tilt az lo hi : ℝ) (bt : Bool) (gcr ct : ℝ) : Fl :=
  (singleaxis (fin zen) (fin saz) (fin tilt) (fin az) (.pair (fin lo) (fin hi)) bt (fin gcr) (fin ct)).tracker_theta

/-- **C236a.** With backtracking, rows closer together turn further back: on the side of the true-tracking rotation `w`, towards the other one. Without backtracking the spacing is
irrelevant. -/
theorem tracker_denser {zen saz tilt az lo hi ct gcr gcr' : ℝ} (hz : zen ≤ 90) (hc : cosDeg ct ≠ 0) (hg : 0 < gcr) (hgg : gcr ≤ gcr') :
    ∃ w θ θ' : ℝ, projectedSolarZenithAngle (fin zen) (fin saz) (fin tilt) (fin az) = fin w ∧
      rotation zen saz tilt az lo hi true gcr ct = fin θ ∧ rotation zen saz tilt az lo hi true gcr' ct = fin θ' ∧
      (0 ≤ w → θ' ≤ θ) ∧ (w ≤ 0 → θ ≤ θ') ∧
      (ct = 0 → gcr' ≤ 1 → -90 ≤ w → w ≤ 90 → lo = -hi → 0 ≤ hi → |θ'| ≤ |θ|) ∧
      rotation zen saz tilt az lo hi false gcr ct = rotation zen saz tilt az lo hi false gcr' ct := by
  have hg' : 0 < gcr' := hg.trans_le hgg
  obtain ⟨θ, _, _, _, e1, e2, -⟩ := singleaxis_day zen saz tilt az gcr ct lo hi true hz hg.ne' hc
  obtain ⟨θ', _, _, _, e1', e2', -⟩ := singleaxis_day zen saz tilt az gcr' ct lo hi true hz hg'.ne' hc
  obtain ⟨t, _, _, _, f1, f2, -⟩ := singleaxis_day zen saz tilt az gcr ct lo hi false hz hg.ne' hc
  obtain ⟨t', _, _, _, f1', f2', -⟩ := singleaxis_day zen saz tilt az gcr' ct lo hi false hz hg'.ne' hc
  obtain ⟨m1, m2⟩ := btTheta_denser (w := psza zen saz tilt az) (ct := ct) hg hgg
  simp only [if_true] at e2 e2'
  simp only [Bool.false_eq_true, if_false] at f2 f2'
  have p1 : 0 ≤ psza zen saz tilt az → θ' ≤ θ := fun h => by rw [e2, e2']; exact min_le_min_right _ (max_le_max_right _ (m1 h))
  have p2 : psza zen saz tilt az ≤ 0 → θ ≤ θ' := fun h => by rw [e2, e2']; exact min_le_min_right _ (max_le_max_right _ (m2 h))
  refine ⟨psza zen saz tilt az, θ, θ', projected_fin .., by unfold rotation; rw [e1], by unfold rotation; rw [e1'], p1, p2, ?_, ?_⟩
  · rintro rfl hg1 hw hw' rfl hh
    obtain ⟨b1, b2⟩ := backtrack_towards_horizontal (psza zen saz tilt az) gcr' hg' hg1 hw hw'
    rcases le_total 0 (psza zen saz tilt az) with h | h
    · have := (b1 h).1
      have h0 : 0 ≤ θ' := by rw [e2']; exact le_min (le_max_of_le_left this) hh
      rw [abs_of_nonneg h0, abs_of_nonneg (h0.trans (p1 h))]
      exact p1 h
    · have := (b2 h).2
      have h0 : θ' ≤ 0 := by rw [e2']; exact min_le_of_left_le (max_le this (by linarith))
      rw [abs_of_nonpos h0, abs_of_nonpos ((p2 h).trans h0)]
      linarith [p2 h]
  · unfold rotation
    rw [f1, f1', f2, f2']

example := tracker_denser (zen := 80) (saz := 90) (tilt := 0) (az := 0) (lo := -60) (hi := 60) (ct := 0) (gcr := 0.3) (gcr' := 0.5) (by norm_num)
  (cosDeg_ne_of (by norm_num) (by norm_num)) (by norm_num) (by norm_num)

/-! ### Shade -/

/-- **C236b.** Rows further apart shade each other no more, whatever the rotations of the two rows and the offset of their axes, for a sun in front of the slope. -/
theorem shade_sparser {zen saz az t width pitch pitch' tilt off ct : ℝ} {t' : Option ℝ} (hw : 0 < width) (hp : pitch ≤ pitch') (hc : 0 < cosDeg ct) {w : ℝ}
    (hpz : projectedSolarZenithAngle (fin zen) (fin saz) (fin tilt) (fin az) = fin w) (hs : 0 ≤ cosDeg (w - ct)) (ht : cosDeg (t - w) ≠ 0) :
    ∃ f f' : ℝ, shadedFraction1d (fin zen) (fin saz) (fin az) (fin t) (fin width) (fin pitch) (fin tilt) (fin off) (fin ct) (t'.map fin) = fin f ∧
      shadedFraction1d (fin zen) (fin saz) (fin az) (fin t) (fin width) (fin pitch') (fin tilt) (fin off) (fin ct) (t'.map fin) = fin f' ∧ 0 ≤ f' ∧ f' ≤ f ∧ f ≤ 1 := by
  have h1 : |cosDeg (t - w)| ≠ 0 := abs_ne_zero.mpr ht
  have h1' : 0 < |cosDeg (t - w)| := abs_pos.mpr ht
  have hr : (t'.map fin).getD (fin t) = fin (t'.getD t) := by cases t' <;> rfl
  have val : ∀ P : ℝ, shadedFraction1d (fin zen) (fin saz) (fin az) (fin t) (fin width) (fin P) (fin tilt) (fin off) (fin ct) (t'.map fin) =
      fin (min (max (0.5 + |cosDeg (t'.getD t - w)| / |cosDeg (t - w)| / 2 + (SignType.sign w : ℝ) * off / width / |cosDeg (t - w)| * (sinDeg (t - w) - sinDeg (t'.getD t - w)) -
        P / width * cosDeg (w - ct) / |cosDeg (t - w)| / cosDeg ct) 0) 1) := by
    intro P
    unfold shadedFraction1d
    dsimp only
    rw [hpz, hr]
    simp only [tAsterisk, fin_sub, cosd_fin, sind_fin, abs_fin, fin_div h1, sign_fin, fin_mul, fin_div hw.ne', fin_div hc.ne', ofScientific_eq, ofNat_eq]
    rw [fin_div (by norm_num : (2:ℝ) ≠ 0)]
    simp only [fin_add, fin_sub, zero_eq, one_eq, clip_fin]
    congr 5
    rcases lt_trichotomy w 0 with h | rfl | h
    · simp [h, h.not_gt]
    · simp
    · simp [h]
  refine ⟨_, _, val pitch, val pitch', le_min (le_max_right _ _) zero_le_one, ?_, min_le_right _ _⟩
  refine min_le_min_right _ (max_le_max_right _ ?_)
  have : pitch / width * cosDeg (w - ct) / |cosDeg (t - w)| / cosDeg ct ≤ pitch' / width * cosDeg (w - ct) / |cosDeg (t - w)| / cosDeg ct := by gcongr
  linarith

/-- A low sun in the east, rows at 60 degrees, two and three metres apart, the shading row at 50 degrees. -/
example := shade_sparser (zen := 80) (saz := 90) (az := 0) (t := 60) (width := 1) (pitch := 2) (pitch' := 3) (tilt := 0) (off := 0.1) (ct := 5) (t' := some 50) (w := 80)
  (by norm_num) (by norm_num) (cosDeg_pos_of (by norm_num) (by norm_num)) (by rw [projected_fin, psza_east 80 (by norm_num) (by norm_num)])
  (cosDeg_pos_of (by norm_num) (by norm_num)).le (cosDeg_ne_of (by norm_num) (by norm_num))

/-! ### Views of the sky and the ground -/

private theorem poly_eq (β gcr y : ℝ) : poly β gcr y = Real.sqrt ((1 / gcr * Real.cos (β * (π / 180)) + y) ^ 2 + (1 / gcr * Real.sin (β * (π / 180))) ^ 2) := by
  have hs := Real.sin_sq_add_cos_sq (β * (π / 180))
  unfold poly
  congr 1
  have := congrArg (fun z => (1 / gcr) ^ 2 * z) hs
  linarith

/-- The cosine of the direction to an edge of the next row at height `y`, by the spacing `a = 1 / gcr`. -/
private theorem ratio_eq (β gcr y : ℝ) (hg : 0 < gcr) (hs : 0 < Real.sin (β * (π / 180))) :
    (1 / gcr * Real.cos (β * (π / 180)) + y) / poly β gcr y =
      ((Real.cos (β * (π / 180)) + y * gcr) / Real.sin (β * (π / 180))) /
        Real.sqrt (((Real.cos (β * (π / 180)) + y * gcr) / Real.sin (β * (π / 180))) ^ 2 + 1 ^ 2) := by
  set c := Real.cos (β * (π / 180))
  set s := Real.sin (β * (π / 180))
  have hk : 0 < 1 / gcr * s := by positivity
  have e1 : 1 / gcr * c + y = (c + y * gcr) / s * (1 / gcr * s) := by field_simp
  rw [poly_eq, e1, mul_pow, ← add_one_mul, Real.sqrt_mul (by positivity), Real.sqrt_sq hk.le, one_pow, mul_div_mul_right _ _ hk.ne']

/-- **C236c.** From every point of a row, denser rows leave less of the sky and of the ground. -/
theorem views_denser {β gcr gcr' x : ℝ} (hg : 0 < gcr) (hgg : gcr ≤ gcr') (h0 : 0 ≤ x) (h1 : x ≤ 1) (hs : 0 < Real.sin (β * (π / 180))) :
    ∃ v v' u u' : ℝ, vfRowSky2d (fin β) (fin gcr) (fin x) = fin v ∧ vfRowSky2d (fin β) (fin gcr') (fin x) = fin v' ∧ v' ≤ v ∧
      vfRowGround2d (fin β) (fin gcr) (fin x) = fin u ∧ vfRowGround2d (fin β) (fin gcr') (fin x) = fin u' ∧ u' ≤ u := by
  have hg' := hg.trans_le hgg
  refine ⟨_, _, _, _, row_sky_view β gcr x hg (.inr hs.ne'), row_sky_view β gcr' x hg' (.inr hs.ne'), ?_, row_ground_view β gcr x hg (.inr hs.ne'),
    row_ground_view β gcr' x hg' (.inr hs.ne'), ?_⟩
  · rw [skyView_eq, skyView_eq, sub_eq_add_neg (1 / gcr * _), sub_eq_add_neg (1 / gcr' * _), ratio_eq β gcr _ hg hs, ratio_eq β gcr' _ hg' hs]
    have : (Real.cos (β * (π / 180)) + -(1 - x) * gcr') / Real.sin (β * (π / 180)) ≤ (Real.cos (β * (π / 180)) + -(1 - x) * gcr) / Real.sin (β * (π / 180)) := by
      apply div_le_div_of_nonneg_right _ hs.le
      have := mul_le_mul_of_nonneg_left hgg (sub_nonneg.2 h1)
      linarith
    have := mono_aux _ _ 1 this (by positivity) (by positivity)
    linarith
  · rw [groundView_eq, groundView_eq, ratio_eq β gcr _ hg hs, ratio_eq β gcr' _ hg' hs]
    have : (Real.cos (β * (π / 180)) + x * gcr) / Real.sin (β * (π / 180)) ≤ (Real.cos (β * (π / 180)) + x * gcr') / Real.sin (β * (π / 180)) := by
      apply div_le_div_of_nonneg_right _ hs.le
      have := mul_le_mul_of_nonneg_left hgg h0
      linarith
    have := mono_aux _ _ 1 this (by positivity) (by positivity)
    linarith

example := views_denser (β := 30) (gcr := 0.3) (gcr' := 0.5) (x := 0.4) (by norm_num) (by norm_num) (by norm_num) (by norm_num) (Spec.sinDeg_pos_of (by norm_num) (by norm_num))

/-- **C236d.** So does the mean over a segment of the row, for the sky. -/
theorem sky_mean_denser {β gcr gcr' x0 x1 : ℝ} (hg : 0 < gcr) (hgg : gcr ≤ gcr') (hβ : 0 ≤ β) (h0 : 0 ≤ x0) (hx : x0 + 1e-6 ≤ x1) (h1 : x1 ≤ 1)
    (hs : 0 < Real.sin (β * (π / 180))) :
    ∃ v v' : ℝ, vfRowSky2dInteg (fin β) (fin gcr) (fin x0) (fin x1) = fin v ∧ vfRowSky2dInteg (fin β) (fin gcr') (fin x0) (fin x1) = fin v' ∧ v' ≤ v := by
  have hg' := hg.trans_le hgg
  have hpos : x0 < x1 := by norm_num at hx ⊢; linarith
  refine ⟨_, _, row_sky_mean β gcr x0 x1 hg hβ hx hs.ne', row_sky_mean β gcr' x0 x1 hg' hβ hx hs.ne', ?_⟩
  unfold meanOver
  refine mul_le_mul_of_nonneg_left ?_ (by have := sub_pos.2 hpos; positivity)
  refine intervalIntegral.integral_mono_on hpos.le ((skyView_continuous β gcr' fun x => poly_pos β gcr' _ hg' (.inr hs.ne')).intervalIntegrable _ _)
    ((skyView_continuous β gcr fun x => poly_pos β gcr _ hg (.inr hs.ne')).intervalIntegrable _ _) fun x hx' => ?_
  obtain ⟨v, v', _, _, e1, e2, e3, -⟩ := views_denser (β := β) (x := x) hg hgg (h0.trans hx'.1) (hx'.2.trans h1) hs
  rw [row_sky_view β gcr x hg (.inr hs.ne')] at e1
  rw [row_sky_view β gcr' x hg' (.inr hs.ne')] at e2
  rw [Fl.fin.inj e1, Fl.fin.inj e2]
  exact e3

example := sky_mean_denser (β := 30) (gcr := 0.3) (gcr' := 0.5) (x0 := 0) (x1 := 1) (by norm_num) (by norm_num) (by norm_num) (by norm_num) (by norm_num) (by norm_num)
  (Spec.sinDeg_pos_of (by norm_num) (by norm_num))

/-! ### Masking angles and diffuse shading -/

private theorem maskRad_denser {tilt gcr gcr' x : ℝ} (ht : 0 ≤ tilt) (ht1 : tilt ≤ 180) (hg : 0 ≤ gcr) (hgg : gcr ≤ gcr') (hg1 : gcr' < 1) (h0 : 0 ≤ x) (h1 : x ≤ 1) :
    maskRad tilt gcr x ≤ maskRad tilt gcr' x := by
  have hpi := Real.pi_pos
  have hs : 0 ≤ sinDeg tilt := Real.sin_nonneg_of_nonneg_of_le_pi (by positivity) (by nlinarith)
  have r := run_pos tilt gcr (1 - x) hg (hgg.trans_lt hg1) (by linarith) (by linarith)
  have r' := run_pos tilt gcr' (1 - x) (hg.trans hgg) hg1 (by linarith) (by linarith)
  unfold maskRad
  refine Real.arctan_strictMono.monotone ?_
  rw [div_le_div_iff₀ r r']
  have : gcr * ((1 - x) * sinDeg tilt) ≤ gcr' * ((1 - x) * sinDeg tilt) := mul_le_mul_of_nonneg_right hgg (mul_nonneg (by linarith) hs)
  linarith

/-- **C236e.** Denser rows mask more of the sky, at every height, -/
theorem masking_denser {tilt gcr gcr' x : ℝ} (ht : 0 ≤ tilt) (ht1 : tilt ≤ 180) (hg : 0 ≤ gcr) (hgg : gcr ≤ gcr') (hg1 : gcr' < 1) (h0 : 0 ≤ x) (h1 : x ≤ 1) :
    ∃ m m' : ℝ, maskingAngle (fin tilt) (fin gcr) (fin x) = fin m ∧ maskingAngle (fin tilt) (fin gcr') (fin x) = fin m' ∧ m ≤ m' :=
  ⟨_, _, maskingAngle_eq tilt gcr x hg (hgg.trans_lt hg1) h0 h1, maskingAngle_eq tilt gcr' x (hg.trans hgg) hg1 h0 h1,
    mul_le_mul_of_nonneg_right (maskRad_denser ht ht1 hg hgg hg1 h0 h1) (by have := Real.pi_pos; positivity)⟩

example := masking_denser (tilt := 30) (gcr := 0.3) (gcr' := 0.5) (x := 0.4) (by norm_num) (by norm_num) (by norm_num) (by norm_num) (by norm_num) (by norm_num) (by norm_num)

private theorem mask_integrable {tilt gcr : ℝ} (hg : 0 < gcr) (hg1 : gcr < 1) : IntervalIntegrable (fun x => maskRad tilt gcr x) MeasureTheory.volume 0 1 := by
  apply ContinuousOn.intervalIntegrable
  unfold maskRad
  apply Real.continuous_arctan.comp_continuousOn
  apply ContinuousOn.div
  · fun_prop
  · fun_prop
  · intro x hx
    rw [Set.uIcc_of_le zero_le_one] at hx
    exact (run_pos tilt gcr (1 - x) hg.le hg1 (by linarith [hx.2]) (by linarith [hx.1])).ne'

/-- and on average, and so lose more of the diffuse light of the sky. -/
theorem passias_denser {tilt gcr gcr' : ℝ} (ht : 0 < tilt) (ht1 : tilt < 90) (hg : 0 < gcr) (hgg : gcr ≤ gcr') (hg1 : gcr' < 1) :
    ∃ m m' : ℝ, maskingAnglePassias (fin tilt) (fin gcr) = fin m ∧ maskingAnglePassias (fin tilt) (fin gcr') = fin m' ∧ 0 ≤ m ∧ m ≤ m' ∧ m' ≤ 180 ∧
      ∃ l l' : ℝ, skyDiffusePassias (fin m) = fin l ∧ skyDiffusePassias (fin m') = fin l' ∧ l ≤ l' := by
  have hpi := Real.pi_pos
  have hg' := hg.trans_le hgg
  have e := maskingAnglePassias_average tilt gcr ht ht1 hg (hgg.trans_lt hg1)
  have e' := maskingAnglePassias_average tilt gcr' ht ht1 hg' hg1
  have i1 : ∫ x in (0:ℝ)..1, maskRad tilt gcr x ≤ ∫ x in (0:ℝ)..1, maskRad tilt gcr' x :=
    intervalIntegral.integral_mono_on zero_le_one (mask_integrable hg (hgg.trans_lt hg1)) (mask_integrable hg' hg1)
      fun x hx => maskRad_denser ht.le (by linarith) hg.le hgg hg1 hx.1 hx.2
  have hs : 0 ≤ sinDeg tilt := Real.sin_nonneg_of_nonneg_of_le_pi (by positivity) (by nlinarith)
  have i0 : 0 ≤ ∫ x in (0:ℝ)..1, maskRad tilt gcr x := by
    refine intervalIntegral.integral_nonneg zero_le_one fun x hx => ?_
    unfold maskRad
    refine Real.arctan_nonneg.2 (div_nonneg (mul_nonneg (mul_nonneg hg.le (by linarith [hx.2])) hs) ?_)
    exact (run_pos tilt gcr (1 - x) hg.le (hgg.trans_lt hg1) (by linarith [hx.2]) (by linarith [hx.1])).le
  have i2 : ∫ x in (0:ℝ)..1, maskRad tilt gcr' x ≤ π / 2 := by
    have := intervalIntegral.integral_mono_on (μ := MeasureTheory.volume) (f := fun x => maskRad tilt gcr' x) (g := fun _ => π / 2) zero_le_one (mask_integrable hg' hg1) (by simp)
      fun x _ => (Real.arctan_lt_pi_div_two _).le
    simpa using this
  have k : ∀ z : ℝ, z ≤ π / 2 → z * (180 / π) ≤ 180 := by
    intro z hz
    have := mul_le_mul_of_nonneg_right hz (show 0 ≤ 180 / π by positivity)
    have e : π / 2 * (180 / π) = 90 := by field_simp; norm_num
    linarith
  have hm : (∫ x in (0:ℝ)..1, maskRad tilt gcr x) * (180 / π) ≤ (∫ x in (0:ℝ)..1, maskRad tilt gcr' x) * (180 / π) := mul_le_mul_of_nonneg_right i1 (by positivity)
  exact ⟨_, _, e, e', by positivity, hm, k _ i2, _, _, passias_value _, passias_value _, by
    have := passias_mono _ _ (by positivity) hm (k _ i2)
    rwa [passias_value, passias_value, fin_le] at this⟩

example := passias_denser (tilt := 30) (gcr := 0.3) (gcr' := 0.5) (by norm_num) (by norm_num) (by norm_num) (by norm_num) (by norm_num)

/-! ### Light on the ground -/

/-- **C236f.** Denser rows shade more of the ground (with enough rows taken into account). -/
theorem ground_denser {θ φ gcr gcr' h pitch pitch' : ℝ} {n : ℤ} (hg : 0 < gcr) (hgg : gcr ≤ gcr') (hn0 : 0 ≤ n) (hφ : Real.cos (φ * (π / 180)) ≠ 0) (hz : |φ| ≤ 85)
    (hn : gcr' * (|Real.tan (φ * (π / 180))| + |Real.cos (θ * (π / 180)) + Real.sin (θ * (π / 180)) * Real.tan (φ * (π / 180))| / 2) ≤ n + 1) :
    ∃ f f' : ℝ, unshadedGroundFraction (fin θ) (fin φ) (fin gcr) (fin h) (fin pitch) n = fin f ∧
      unshadedGroundFraction (fin θ) (fin φ) (fin gcr') (fin h) (fin pitch') n = fin f' ∧ f' ≤ f := by
  have hg' := hg.trans_le hgg
  refine ⟨_, _, BifacialShadow.fraction_closed_form θ φ gcr h pitch n hg hn0 hφ hz (le_trans (by gcongr) hn),
    BifacialShadow.fraction_closed_form θ φ gcr' h pitch' n hg' hn0 hφ hz hn, max_le_max_left 0 ?_⟩
  have := mul_le_mul_of_nonneg_right hgg (abs_nonneg (Real.cos (θ * (π / 180)) + Real.sin (θ * (π / 180)) * Real.tan (φ * (π / 180))))
  linarith

example := ground_denser (θ := 30) (φ := 45) (gcr := 0.3) (gcr' := 0.5) (h := 2) (pitch := 4) (pitch' := 3) (n := 10) (by norm_num) (by norm_num) (by norm_num)
  (Spec.cosDeg_ne_of (by norm_num) (by norm_num)) (by norm_num [abs_of_pos]) (by
    rw [show (45 : ℝ) * (π / 180) = π / 4 by ring, Real.tan_pi_div_four, abs_one, mul_one]
    have h1 : |Real.cos (30 * (π / 180)) + Real.sin (30 * (π / 180))| ≤ 2 := by
      refine (abs_add_le _ _).trans ?_
      have := Real.abs_cos_le_one (30 * (π / 180))
      have := Real.abs_sin_le_one (30 * (π / 180))
      linarith
    push_cast
    linarith)

end Pvlib.Props.DenseRows
end
