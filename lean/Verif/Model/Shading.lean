import Verif.Model.Irradiance

/-! # Model of `pvlib/shading.py` and `pvlib/tracking.py` (one time step) -/

noncomputable section
open scoped Classical
open Real
namespace Pvlib.Shading
open Fl Pvlib.Tools

/-- `ground_angle`, pvlib/shading.py:11-49. -/
def groundAngle (surface_tilt gcr slant_height : Fl) : Fl :=
  let x1 := gcr * slant_height * sind surface_tilt
  let x2 := gcr * slant_height * cosd surface_tilt + 1
  degrees (arctan2 x1 x2)

/-- `masking_angle`, pvlib/shading.py:52-99. -/
def maskingAngle (surface_tilt gcr slant_height : Fl) : Fl :=
  let numerator := gcr * (1 - slant_height) * sind surface_tilt
  let denominator := 1 - gcr * (1 - slant_height) * cosd surface_tilt
  degrees (Fl.arctan (numerator / denominator))

/-- `masking_angle_passias`, pvlib/shading.py:102-191. -/
def maskingAnglePassias (surface_tilt gcr : Fl) : Fl :=
  let beta := radians surface_tilt
  let sin_b := Fl.sin beta
  let cos_b := Fl.cos beta
  let X := 1 / gcr
  let term1 := -X * sin_b * Fl.log (Fl.abs (2 * X * cos_b - (X ^ 2 + 1))) / 2
  let term2 := (X * cos_b - 1) * Fl.arctan ((X * cos_b - 1) / (X * sin_b))
  let term3 := (1 - X * cos_b) * Fl.arctan (cos_b / sin_b)
  let term4 := X * Fl.log X * sin_b
  let psi_avg := term1 + term2 + term3 + term4
  let psi_avg := npwhere (isfinite psi_avg) psi_avg 0
  degrees psi_avg

/-- `sky_diffuse_passias`, pvlib/shading.py:194-234. -/
def skyDiffusePassias (masking_angle : Fl) : Fl := 1 - cosd (masking_angle / 2) ^ 2

/-- `projected_solar_zenith_angle`, pvlib/shading.py:237-344. -/
def projectedSolarZenithAngle (solar_zenith solar_azimuth axis_tilt axis_azimuth : Fl) : Fl :=
  let sind_solar_zenith := sind solar_zenith
  let cosd_axis_azimuth := cosd axis_azimuth
  let sind_axis_azimuth := sind axis_azimuth
  let sind_axis_tilt := sind axis_tilt
  let sx := sind_solar_zenith * sind solar_azimuth
  let sy := sind_solar_zenith * cosd solar_azimuth
  let sz := cosd solar_zenith
  let sx_prime := sx * cosd_axis_azimuth - sy * sind_axis_azimuth
  let sz_prime := sx * sind_axis_azimuth * sind_axis_tilt + sy * sind_axis_tilt * cosd_axis_azimuth
    + sz * cosd axis_tilt
  degrees (arctan2 sx_prime sz_prime)

/-- The unclipped `t_asterisk` of `shaded_fraction1d`, pvlib/shading.py:529-553, given the projected
solar zenith angle. -/
def tAsterisk (projected_solar_zenith shaded_row_rotation shading_row_rotation collector_width pitch
    surface_to_axis_offset cross_axis_slope : Fl) : Fl :=
  let thetas_1_S_diff := shading_row_rotation - projected_solar_zenith
  let thetas_2_S_diff := shaded_row_rotation - projected_solar_zenith
  let thetaS_rotation_diff := projected_solar_zenith - cross_axis_slope
  let cos_theta_2_S_diff_abs := Fl.abs (cosd thetas_2_S_diff)
  0.5 + Fl.abs (cosd thetas_1_S_diff) / cos_theta_2_S_diff_abs / 2
    + (sign projected_solar_zenith * surface_to_axis_offset / collector_width
        / cos_theta_2_S_diff_abs * (sind thetas_2_S_diff - sind thetas_1_S_diff))
    - (pitch / collector_width * cosd thetaS_rotation_diff / cos_theta_2_S_diff_abs
        / cosd cross_axis_slope)

/-- `shaded_fraction1d`, pvlib/shading.py:347-555. -/
def shadedFraction1d (solar_zenith solar_azimuth axis_azimuth shaded_row_rotation
    collector_width pitch : Fl) (axis_tilt : Fl := 0) (surface_to_axis_offset : Fl := 0)
    (cross_axis_slope : Fl := 0) (shading_row_rotation : Option Fl := none) : Fl :=
  let shading_row_rotation := shading_row_rotation.getD shaded_row_rotation
  let projected_solar_zenith :=
    projectedSolarZenithAngle solar_zenith solar_azimuth axis_tilt axis_azimuth
  clip (tAsterisk projected_solar_zenith shaded_row_rotation shading_row_rotation collector_width
    pitch surface_to_axis_offset cross_axis_slope) 0 1

/-- `direct_martinez`, pvlib/shading.py:558-694. -/
def directMartinez (poa_global poa_direct shaded_fraction shaded_blocks total_blocks : Fl) : Fl :=
  let beam_factor := (1 - shaded_fraction) * (1 - Fl.ceil shaded_blocks / (1 + total_blocks))
  1 - (poa_direct * beam_factor + (poa_global - poa_direct)) / poa_global

end Pvlib.Shading

namespace Pvlib.Tracking
open Fl Pvlib.Tools

/-- `_unit_normal`, pvlib/tracking.py:214-254. -/
def unitNormal (axis_azimuth axis_tilt theta : Fl) : Fl × Fl × Fl :=
  let cA := cosd (-axis_azimuth)
  let sA := sind (-axis_azimuth)
  let cT := cosd (-axis_tilt)
  let sT := sind (-axis_tilt)
  let cTh := cosd theta
  let sTh := sind theta
  (sA * sT * cTh + cA * sTh, sA * sTh - cA * sT * cTh, cT * cTh)

/-- `calc_surface_orientation`, pvlib/tracking.py:257-313: (surface_tilt, surface_azimuth). -/
def calcSurfaceOrientation (tracker_theta : Fl) (axis_tilt axis_azimuth : Fl) : Fl × Fl :=
  let surface_tilt := acosd (cosd tracker_theta * cosd axis_tilt)
  let unit_normal := unitNormal axis_azimuth axis_tilt tracker_theta
  let surface_azimuth := degrees (arctan2 unit_normal.1 unit_normal.2.1)
  let surface_azimuth := npwhere (eqv surface_tilt 0) (axis_azimuth - 90) surface_azimuth
  let surface_azimuth := Fl.mod surface_azimuth 360
  (surface_tilt, surface_azimuth)

/-- The backtracking correction, pvlib/tracking.py:159-178: rotation given the ideal rotation. -/
def backtrackTheta (omega_ideal gcr cross_axis_tilt : Fl) : Fl :=
  let axes_distance := 1 / (gcr * cosd cross_axis_tilt)
  let temp := Fl.abs (axes_distance * cosd (omega_ideal - cross_axis_tilt))
  let omega_correction := degrees (-sign omega_ideal * arccos temp)
  omega_ideal + npwhere (temp < 1) omega_correction 0

/-- `max_angle`: a single number or a (min, max) pair, pvlib/tracking.py:185-190. -/
inductive MaxAngle where
  | scalar (a : Fl)
  | pair (lo hi : Fl)

/-- `min_angle, max_angle`, pvlib/tracking.py:185-190. -/
def MaxAngle.lims : MaxAngle → Fl × Fl
  | .scalar a => (-a, a)
  | .pair lo hi => (lo, hi)

/-- One row of `singleaxis`' output. (Used for pvlib/tracking.py:14-211.) -/
structure TrackerOut where
  (tracker_theta aoi surface_azimuth surface_tilt : Fl)

/-- `singleaxis`, pvlib/tracking.py:14-211, for one time step (dimension checks, array and
DataFrame packaging dropped). -/
def singleaxis (apparent_zenith solar_azimuth axis_tilt axis_azimuth : Fl) (max_angle : MaxAngle)
    (backtrack : Bool) (gcr cross_axis_tilt : Fl) : TrackerOut :=
  let omega_ideal := Shading.projectedSolarZenithAngle apparent_zenith solar_azimuth axis_tilt
    axis_azimuth
  let omega_ideal := if 90 < apparent_zenith then nan else omega_ideal
  let tracker_theta := if backtrack then backtrackTheta omega_ideal gcr cross_axis_tilt
    else omega_ideal
  let tracker_theta := clip tracker_theta max_angle.lims.1 max_angle.lims.2
  let surface := calcSurfaceOrientation tracker_theta axis_tilt axis_azimuth
  let aoi := Irradiance.aoi surface.1 surface.2 apparent_zenith solar_azimuth
  let f (x : Fl) : Fl := npwhere (90 < apparent_zenith) nan x
  ⟨f tracker_theta, f aoi, f surface.2, f surface.1⟩

/-- `calc_axis_tilt`, pvlib/tracking.py:316-355. -/
def calcAxisTilt (slope_azimuth slope_tilt axis_azimuth : Fl) : Fl :=
  let delta_gamma := axis_azimuth - slope_azimuth
  let tan_axis_tilt := cosd delta_gamma * tand slope_tilt
  degrees (Fl.arctan tan_axis_tilt)

/-- `_calc_tracker_norm`, pvlib/tracking.py:358-384. -/
def calcTrackerNorm (ba bg dg : Fl) : Fl × Fl × Fl :=
  let cos_ba := cosd ba
  let cos_bg := cosd bg
  let sin_bg := sind bg
  let sin_dg := sind dg
  (sin_dg * cos_ba * cos_bg, sind ba * sin_bg + cosd dg * cos_ba * cos_bg, -sin_dg * sin_bg * cos_ba)

/-- `_calc_beta_c`, pvlib/tracking.py:387-408. -/
def calcBetaC (v : Fl × Fl × Fl) (dg ba : Fl) : Fl :=
  let vnorm := Fl.sqrt (v.1 * v.1 + v.2.1 * v.2.1 + v.2.2 * v.2.2)
  arcsin (((v.1 * cosd dg - v.2.1 * sind dg) * sind ba + v.2.2 * cosd ba) / vnorm)

/-- `calc_cross_axis_tilt`, pvlib/tracking.py:411-466. -/
def calcCrossAxisTilt (slope_azimuth slope_tilt axis_azimuth axis_tilt : Fl) : Fl :=
  let delta_gamma := axis_azimuth - slope_azimuth
  let v := calcTrackerNorm axis_tilt slope_tilt delta_gamma
  degrees (calcBetaC v delta_gamma axis_tilt)

end Pvlib.Tracking
end
