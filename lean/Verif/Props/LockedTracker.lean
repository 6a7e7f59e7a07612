import Verif.Props.Tracking
import Verif.Props.Symmetry
import Verif.Model.PvSystem

/-! # Property C204: a tracker that does not turn is a fixed mount -/

noncomputable section
open scoped Classical
open Real
namespace Pvlib.Props.LockedTracker
open Fl Pvlib.Irradiance Pvlib.Tools Pvlib.Shading Pvlib.Tracking Pvlib.Spec Pvlib.Props.Geometry Pvlib.Props.Tracking Pvlib.PvSystem

private theorem tilt_unique {t t' az az' : ℝ} (h0 : 0 ≤ t) (h1 : t ≤ 180) (h0' : 0 ≤ t') (h1' : t' ≤ 180)
    (h : dirVec t az = dirVec t' az') : t = t' := by
  have hz : cosDeg t = cosDeg t' := by
    have := congrArg Vec.z h
    simpa [dirVec] using this
  apply le_antisymm
  · exact le_of_cosDeg_le h1 h0' hz.ge
  · exact le_of_cosDeg_le h1' h0 hz.le

/-- **C204a.** The irradiance on a plane depends on its normal only: two descriptions (tilt, azimuth) of the same normal, with tilts
between 0 and 180, give the same result of `get_total_irradiance` - every column, or the exception - and the same angle of incidence,
for every model.  (A horizontal plane has every azimuth.) -/
theorem same_normal {t t' az az' zen saz : ℝ} (h0 : 0 ≤ t) (h1 : t ≤ 180) (h0' : 0 ≤ t') (h1' : t' ≤ 180)
    (h : dirVec t az = dirVec t' az') (tbl : String → Option PerezTable) (f : ℕ → ℕ → Fl → Fl)
    (dni ghi dhi : Fl) (dni_extra airmass : Option Fl) (albedo : Fl) (st : Option String) (model model_perez : String) (dc : Bool) :
    getTotalIrradiance tbl f (fin t) (fin az) (fin zen) (fin saz) dni ghi dhi dni_extra airmass albedo st model model_perez dc =
      getTotalIrradiance tbl f (fin t') (fin az') (fin zen) (fin saz) dni ghi dhi dni_extra airmass albedo st model model_perez dc ∧
    aoi (fin t) (fin az) (fin zen) (fin saz) = aoi (fin t') (fin az') (fin zen) (fin saz) := by
  have hp : aoiProjection (fin t) (fin az) (fin zen) (fin saz) = aoiProjection (fin t') (fin az') (fin zen) (fin saz) := by
    rw [aoiProjection_dot, aoiProjection_dot, h]
  obtain rfl := tilt_unique h0 h1 h0' h1' h
  have hsky : getSkyDiffuse tbl f (fin t) (fin az) (fin zen) (fin saz) dni ghi dhi dni_extra airmass model model_perez dc =
      getSkyDiffuse tbl f (fin t) (fin az') (fin zen) (fin saz) dni ghi dhi dni_extra airmass model model_perez dc := by
    simp only [getSkyDiffuse, klucher, haydavies, reindl, projectionRatio, perez, perezDriesse, perezTerms, hp]
  constructor
  · simp only [getTotalIrradiance, hsky, aoi, hp]
  · simp only [aoi, hp]

example := (same_normal (t := 0) (t' := 0) (az := 10) (az' := 250) (zen := 40) (saz := 180) le_rfl (by norm_num) le_rfl (by norm_num)
  (by simp [dirVec, sinDeg]) (fun _ => none) (fun _ _ _ => 0) 800 700 100 (some 1367) (some 1.2) 0.2 none "haydavies" "" true)

/-- The mount is locked at the rotation `θ`: both limits are `θ`; a single limit 0 locks it at 0. -/
def Locked (m : MaxAngle) (θ : ℝ) : Prop := m = .pair (fin θ) (fin θ) ∨ (m = .scalar (fin 0) ∧ θ = 0)

private theorem clip_locked (x θ : ℝ) : clip (fin x) (fin θ) (fin θ) = fin θ := by
  simp [clip]

/-- **C204b.** With the sun above the horizon a tracker locked at the rotation `θ` reports this rotation and the orientation
`calc_surface_orientation` gives for it, with or without backtracking. -/
theorem locked_rotation {zen saz tilt az gcr ct θ : ℝ} {m : MaxAngle} (hm : Locked m θ) (bt : Bool) (hz : zen ≤ 90) (hg : gcr ≠ 0)
    (hc : cosDeg ct ≠ 0) :
    let o := singleaxis (fin zen) (fin saz) (fin tilt) (fin az) m bt (fin gcr) (fin ct)
    o.tracker_theta = fin θ ∧ (o.surface_tilt, o.surface_azimuth) = calcSurfaceOrientation (fin θ) (fin tilt) (fin az) ∧
      ∃ t a, o.surface_tilt = fin t ∧ o.surface_azimuth = fin a ∧ 0 ≤ t ∧ t ≤ 180 ∧ dirVec t a = trackerNormal θ tilt az := by
  have hz' : ¬ ((90 : Fl) < fin zen) := by simpa using hz
  have hl : m.lims = (fin θ, fin θ) := by
    rcases hm with rfl | ⟨rfl, rfl⟩
    · rfl
    · simp [MaxAngle.lims]
  have hθ : clip (if bt = true then backtrackTheta (if (90 : Fl) < fin zen then nan else
      projectedSolarZenithAngle (fin zen) (fin saz) (fin tilt) (fin az)) (fin gcr) (fin ct)
      else (if (90 : Fl) < fin zen then nan else projectedSolarZenithAngle (fin zen) (fin saz) (fin tilt) (fin az))) (fin θ) (fin θ) = fin θ := by
    rw [if_neg hz', projected_fin, backtrackTheta_fin _ _ _ hg hc]
    split_ifs <;> exact clip_locked _ _
  obtain ⟨t, a, e, en, t0, t1, -, -⟩ := surfaceOrientation_normal θ tilt az
  simp only [singleaxis, hl, npwhere, if_neg hz'] at hθ ⊢
  rw [hθ]
  refine ⟨rfl, rfl, t, a, by rw [e], by rw [e], t0, t1, en⟩

/-- **C204c.** An Array on a tracker locked at 0 receives, while the sun is above the horizon, exactly what it would receive on a
fixed mount with the tilt and azimuth of the axis: for every transposition model, every column of `get_irradiance` and the angle of
incidence. -/
theorem locked_is_fixed {a : PvArr} {zen saz tilt az gcr ct : ℝ} {m : MaxAngle} {bt : Bool} {rm : Option String} {mh : Option Fl}
    (hm : Locked m 0) (hz : zen ≤ 90) (hg : gcr ≠ 0) (hc : cosDeg ct ≠ 0) (h0 : 0 ≤ tilt) (h1 : tilt ≤ 180) (tb : Tables)
    (extra : Option Fl) (dni ghi dhi : Fl) (dni_extra airmass albedo : Option Fl) (model : String) (kw : IrrKwargs) :
    let trk : PvArr := { a with mount := .tracker (fin tilt) (fin az) m bt (fin gcr) (fin ct) rm mh }
    let fix : PvArr := { a with mount := .fixed (fin tilt) (fin az) rm mh }
    trk.getIrradiance tb extra (fin zen) (fin saz) dni ghi dhi dni_extra airmass albedo model kw =
      fix.getIrradiance tb extra (fin zen) (fin saz) dni ghi dhi dni_extra airmass albedo model kw ∧
    trk.getAoi (fin zen) (fin saz) = fix.getAoi (fin zen) (fin saz) := by
  obtain ⟨-, -, t, b, e1, e2, t0, t1, hn⟩ := locked_rotation (zen := zen) (saz := saz) (tilt := tilt) (az := az) hm bt hz hg hc
  have hn' : dirVec t b = dirVec tilt az := by
    rw [hn]
    simp [trackerNormal, cosDeg, sinDeg]
  dsimp only
  simp only [PvArr.getIrradiance, PvArr.getAoi, Mount.orientation, e1, e2]
  have := same_normal t0 t1 h0 h1 hn' (zen := zen) (saz := saz)
  exact ⟨(this ..).1, (this (fun _ => none) (fun _ _ _ => 0) 0 0 0 none none 0 none "" "" false).2⟩

/-- Its hypotheses met: an axis tilted by 20 degrees to the south, backtracking switched on. -/
example (a : PvArr) (tb : Tables) := locked_is_fixed (a := a) (zen := 50) (saz := 120) (tilt := 20) (az := 180) (gcr := 0.4) (ct := 0)
  (m := .scalar (fin 0)) (bt := true) (rm := none) (mh := none) (.inr ⟨rfl, rfl⟩) (by norm_num) (by norm_num) (by simp [cosDeg])
  (by norm_num) (by norm_num) tb none 800 700 100 none none none "perez" {}

end Pvlib.Props.LockedTracker
end
