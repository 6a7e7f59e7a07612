import Verif.Model.Shading
import Verif.Model.Irradiance
import Verif.Base.Py

/-! # Model of pvlib/bifacial: utils, infinite_sheds, ants2d, loss_models

Every function is modelled for one time, one row segment and one ground segment (all array operations are
elementwise along these dimensions); the dimension `k` of rows is a list. -/

noncomputable section
open Fl Classical

namespace Pvlib.Bifacial

open Pvlib.Tools Pvlib.Irradiance Pvlib.Shading Pvlib.Tracking

/-! ### utils -/

/-- `_solar_projection_tangent`, pvlib/bifacial/utils.py:11-38. -/
def solarProjectionTangent (solar_zenith solar_azimuth surface_azimuth : Fl) : Fl :=
  cosd (solar_azimuth - surface_azimuth) * tand solar_zenith

/-- `np.arange(lo, hi)` over the integers. (Used for pvlib/bifacial/utils.py:107-152.) -/
def arange (lo hi : ℤ) : List ℤ := (List.range (hi - lo).toNat).map fun (i : ℕ) => lo + (i : ℤ)

/-- The shaded part of the ground segment [a, b] by a row whose shadow is [dp, cp] after ordering,
pvlib/bifacial/utils.py:130-144. -/
def shadowPart (cp dp a b : Fl) : Fl :=
  let cp' := npwhere (cp < dp) dp cp
  let dp' := npwhere (cp < dp) cp dp
  let fs : Fl := 1
  let fs := npwhere (dp' ≤ a ∧ a ≤ cp' ∧ cp' < b) ((cp' - a) / (b - a)) fs
  let fs := npwhere (dp' < a ∧ cp' < a) 0 fs
  let fs := npwhere (a < dp' ∧ dp' ≤ b ∧ b ≤ cp') ((b - dp') / (b - a)) fs
  let fs := npwhere (a < dp' ∧ dp' < b ∧ a < cp' ∧ cp' < b) ((cp' - dp') / (b - a)) fs
  npwhere (b < dp' ∧ b < cp') 0 fs

/-- `_unshaded_ground_fraction` with height and pitch known, pvlib/bifacial/utils.py:107-152. -/
def unshadedGround (tracker_rotation phi gcr height pitch : Fl) (max_rows : ℤ) (max_zenith g0 g1 : Fl) : Fl :=
  let collector_width := pitch * gcr
  let Lcostheta := collector_width * cosd tracker_rotation
  let Lsintheta := collector_width * sind tracker_rotation
  let tanphi := tand phi
  let a := g0 * pitch
  let b := g1 * pitch
  let fs := (arange (-max_rows) (max_rows + 2)).map fun (k : ℤ) =>
    let k : Fl := fin k
    let cp := k * pitch + 0.5 * Lcostheta + (height + 0.5 * Lsintheta) * tanphi
    let dp := k * pitch - 0.5 * Lcostheta + (height - 0.5 * Lsintheta) * tanphi
    shadowPart cp dp a b
  let f_gnd_beam := 1 - clip (Fl.sum fs) 0 1
  npwhere (max_zenith < Fl.abs phi) 0 f_gnd_beam

/-- `_unshaded_ground_fraction`, pvlib/bifacial/utils.py:41-156: for the whole ground (`g0 = 0`, `g1 = 1`) height
and pitch are replaced. -/
def unshadedGroundFraction (tracker_rotation phi gcr height pitch : Fl) (max_rows : ℤ := 10) (max_zenith : Fl := 85)
    (g0 : Fl := 0) (g1 : Fl := 1) : Fl :=
  if g0 = 0 ∧ g1 = 1 then unshadedGround tracker_rotation phi gcr 1 (1 / gcr) max_rows max_zenith g0 g1
  else unshadedGround tracker_rotation phi gcr height pitch max_rows max_zenith g0 g1

/-- `vf_ground_sky_2d` at one point and rotation, pvlib/bifacial/utils.py:159-238: sum over neighbouring rows
`k`, `k + 1` of the visible gap. -/
def vfGroundSky2d (rotation gcr x pitch height : Fl) (max_rows : ℤ := 10) : Fl :=
  let width := gcr * pitch / 2
  let dy := width * sind rotation
  let dx := width * cosd rotation
  let a1 := height + dy
  let a2 := height - dy
  let phi0 := fun k : ℤ => Fl.arctan2 a1 ((fin k - x) * pitch + dx)
  let phi1 := fun k : ℤ => Fl.arctan2 a2 ((fin k - x) * pitch - dx)
  let lesser := fun k => minimum (phi0 k) (phi1 k)
  let greater := fun k => maximum (phi0 k) (phi1 k)
  Fl.sum ((arange (-max_rows) (max_rows + 1)).map fun (k : ℤ) =>
    maximum (Fl.cos (greater (k + 1)) - Fl.cos (lesser k)) 0) / 2

/-- `_dist`, pvlib/bifacial/utils.py:705-706. -/
def dist (p1 p2 : Fl × Fl) : Fl := Fl.sqrt ((p1.1 - p2.1) ^ 2 + (p1.2 - p2.2) ^ 2)

/-- `_angle`, pvlib/bifacial/utils.py:709-711. -/
def angle (p1 p2 : Fl × Fl) : Fl := Fl.arctan2 (p2.2 - p1.2) (p2.1 - p1.1)

/-- One string of `_obstructed_string_lengths`, pvlib/bifacial/utils.py:674-700. -/
def stringLength (p q ob_left ob_right : Fl × Fl) : Fl :=
  let s := npwhere (1e-8 < angle p q - angle p ob_left) (dist p ob_left + dist ob_left q) (dist p q)
  npwhere (1e-8 < angle p ob_right - angle p q) (dist p ob_right + dist ob_right q) s

/-- `(ac + bd) - (bc + ad)` of the obstructed strings, pvlib/bifacial/utils.py:360-363, 632-635. -/
def crossedStrings (a b c d ob_left ob_right : Fl × Fl) : Fl :=
  (stringLength a c ob_left ob_right + stringLength b d ob_left ob_right) -
    (stringLength b c ob_left ob_right + stringLength a d ob_left ob_right)

/-- The term of row gap `k` in `vf_ground_sky_2d_integ`, pvlib/bifacial/utils.py:324-363. -/
def groundSkySlat (tracker_rotation gcr height pitch g0 g1 : Fl) (k : ℤ) : Fl :=
  let collector_width := pitch * gcr
  let Lcostheta := collector_width * cosd tracker_rotation
  let Lsintheta := collector_width * sind tracker_rotation
  let k : Fl := fin k
  let a : Fl × Fl := (g0 * pitch, 0)
  let b : Fl × Fl := (g1 * pitch, 0)
  let sign := Fl.sign tracker_rotation
  let c := ((k + 1) * pitch + sign * 0.5 * Lcostheta, height + sign * 0.5 * Lsintheta)
  let d := (c.1 - pitch, c.2)
  let left := (k * pitch - 0.5 * Lcostheta, height - 0.5 * Lsintheta)
  let right := (k * pitch + 0.5 * Lcostheta, height + 0.5 * Lsintheta)
  let ob_left := if angle a right < angle a left then right else left
  let left := (left.1 + pitch, left.2)
  let right := (right.1 + pitch, right.2)
  let ob_right := if angle b right < angle b left then left else right
  0.5 * (1 / ((g1 - g0) * pitch)) * crossedStrings a b c d ob_left ob_right

/-- `vf_ground_sky_2d_integ`, pvlib/bifacial/utils.py:241-369. -/
def vfGroundSky2dInteg (tracker_rotation gcr height pitch : Fl) (max_rows : ℤ := 10) (g0 : Fl := 0) (g1 : Fl := 1) : Fl :=
  Fl.sum ((arange (-max_rows) (max_rows + 1)).map fun (k : ℤ) =>
    maximum (groundSkySlat tracker_rotation gcr height pitch g0 g1 k) 0)

/-- `_vf_poly`, pvlib/bifacial/utils.py:372-395. -/
def vfPoly (surface_tilt gcr x delta : Fl) : Fl :=
  let a := 1 / gcr
  let c := cosd surface_tilt
  Fl.sqrt (a * a + 2 * delta * a * c * x + x * x)

/-- `vf_row_sky_2d`, pvlib/bifacial/utils.py:398-424. -/
def vfRowSky2d (surface_tilt gcr x : Fl) : Fl :=
  let p := vfPoly surface_tilt gcr (1 - x) (-1)
  0.5 * (1 + (1 / gcr * cosd surface_tilt - (1 - x)) / p)

/-- `vf_row_sky_2d_integ`, pvlib/bifacial/utils.py:427-489. -/
def vfRowSky2dInteg (surface_tilt gcr : Fl) (x0 : Fl := 0) (x1 : Fl := 1) : Fl :=
  let y0 := npwhere (surface_tilt < 0) (1 - x1) x0
  let y1 := npwhere (surface_tilt < 0) (1 - x0) x1
  let u := Fl.abs (y1 - y0)
  let p0 := vfPoly surface_tilt gcr (1 - y0) (-1)
  let p1 := vfPoly surface_tilt gcr (1 - y1) (-1)
  npwhere (u < 1e-6) (vfRowSky2d surface_tilt gcr y0) (0.5 * (1 + 1 / u * (p1 - p0)))

/-- `vf_row_ground_2d`, pvlib/bifacial/utils.py:492-518. -/
def vfRowGround2d (surface_tilt gcr x : Fl) : Fl :=
  let p := vfPoly surface_tilt gcr x 1
  0.5 * (1 - (1 / gcr * cosd surface_tilt + x) / p)

/-- The term of ground cell `k` in `vf_row_ground_2d_integ`, pvlib/bifacial/utils.py:592-635. -/
def rowGroundSlat (surface_tilt gcr height pitch x0 x1 g0 g1 : Fl) (k : ℤ) : Fl :=
  let surface_tilt := npwhere (surface_tilt = 180) 179.9999 surface_tilt
  let surface_tilt := npwhere (surface_tilt = -180) (-179.9999) surface_tilt
  let collector_width := pitch * gcr
  let Lcostheta := collector_width * cosd surface_tilt
  let Lsintheta := collector_width * sind surface_tilt
  let k : Fl := fin k
  let ob_right := (-pitch - 0.5001 * Lcostheta, height - 0.5001 * Fl.abs Lsintheta)
  let ob_left := (ob_right.1 + pitch, ob_right.2)
  let ob_right' := (npwhere (surface_tilt < 0) (-ob_left.1) ob_right.1, ob_right.2)
  let ob_left' := (npwhere (surface_tilt < 0) (-ob_right.1) ob_left.1, ob_left.2)
  let a := ((x0 - 0.5) * Lcostheta, height + (x0 - 0.5) * Lsintheta)
  let b := ((x1 - 0.5) * Lcostheta, height + (x1 - 0.5) * Lsintheta)
  let c : Fl × Fl := ((k + g0) * pitch, 0)
  let d : Fl × Fl := ((k + g1) * pitch, 0)
  1 / (2 * (x1 - x0) * collector_width) * crossedStrings a b c d ob_left' ob_right'

/-- `vf_row_ground_2d_integ`, pvlib/bifacial/utils.py:521-641: for the whole row and ground, height and pitch are
replaced. -/
def vfRowGround2dInteg (surface_tilt gcr height pitch : Fl) (x0 : Fl := 0) (x1 : Fl := 1) (max_rows : ℤ := 20)
    (g0 : Fl := 0) (g1 : Fl := 1) : Fl :=
  let whole : Prop := g0 = 0 ∧ g1 = 1 ∧ x0 = 0 ∧ x1 = 1
  let height' := if whole then 1 else height
  let pitch' := if whole then 1 / gcr else pitch
  Fl.sum ((arange (-max_rows) max_rows).map fun (k : ℤ) =>
    maximum (rowGroundSlat surface_tilt gcr height' pitch' x0 x1 g0 g1 k) 0)

/-! ### infinite_sheds -/

/-- `_poa_ground_shadows`, pvlib/bifacial/infinite_sheds.py:12-40. -/
def poaGroundShadows (ghi dhi albedo f_gnd_beam vf_gnd_sky : Fl) : Fl :=
  albedo * (f_gnd_beam * (ghi - dhi) + vf_gnd_sky * dhi)

/-- `_shaded_fraction`, pvlib/bifacial/infinite_sheds.py:109-166. -/
def shedsShadedFraction (solar_zenith solar_azimuth surface_tilt surface_azimuth gcr : Fl) : Fl :=
  let tan_phi := solarProjectionTangent solar_zenith solar_azimuth surface_azimuth
  let x := gcr * (sind surface_tilt * tan_phi + cosd surface_tilt)
  let f_x := 1 - 1 / x
  let ao := aoi surface_tilt surface_azimuth solar_zenith solar_azimuth
  let f_x := npwhere (ao < 90) f_x 1
  npwhere (1 < x) f_x 0

/-- The circumsolar column of a sky model result. (Used for pvlib/bifacial/infinite_sheds.py:295-312.) -/
def circumsolar (s : Sky) : Fl := (s.components.lookup "poa_circumsolar").getD nan

/-- Moving the circumsolar part from DHI to DNI, pvlib/bifacial/infinite_sheds.py:295-312: (dni, dhi).
`f tilt azimuth` is the diffuse model. -/
def moveCircumsolar (f : Fl → Fl → Sky) (solar_zenith solar_azimuth dhi dni : Fl) : Fl × Fl :=
  (dni + circumsolar (f solar_zenith solar_azimuth), dhi - circumsolar (f 0 180))

/-- Output of `get_irradiance_poa`, pvlib/bifacial/infinite_sheds.py:367-370. -/
structure PoaSide where
  poa_global : Fl
  poa_direct : Fl
  poa_diffuse : Fl
  poa_ground_diffuse : Fl
  poa_sky_diffuse : Fl
  shaded_fraction : Fl

/-- `max_rows = np.ceil(height / (pitch * tand(5)))` as used by `np.arange`, for finite values. (Used for pvlib/bifacial/infinite_sheds.py:43-106.) -/
def maxRows (height pitch degrees : Fl) : ℤ :=
  match Fl.ceil (height / (pitch * tand degrees)) with
  | fin r => ⌊r⌋
  | _ => 0

/-- `get_irradiance_poa` after the choice of sky model, pvlib/bifacial/infinite_sheds.py:43-106, 314-373 (with `_poa_sky_diffuse_pv` and
`_poa_ground_pv` inlined). -/
def shedsSide (surface_tilt surface_azimuth solar_zenith solar_azimuth gcr height pitch ghi dhi dni albedo iam : Fl) : PoaSide :=
  let max_rows := maxRows height pitch 5
  let tanphi := solarProjectionTangent solar_zenith solar_azimuth surface_azimuth
  let phi := atand tanphi
  let f_gnd_beam := unshadedGroundFraction surface_tilt phi gcr nan nan
  let vf_gnd_sky := vfGroundSky2dInteg surface_tilt gcr height pitch max_rows 0 1
  let f_x := shedsShadedFraction solar_zenith solar_azimuth surface_tilt surface_azimuth gcr
  let poa_sky_pv := dhi * vfRowSky2dInteg surface_tilt gcr 0 1
  let ground_diffuse := poaGroundShadows ghi dhi albedo f_gnd_beam vf_gnd_sky
  let poa_gnd_pv := ground_diffuse * vfRowGround2dInteg surface_tilt gcr nan nan 0 1 20 0 1
  let poa_diffuse := poa_gnd_pv + poa_sky_pv
  let poa_beam := beamComponent surface_tilt surface_azimuth solar_zenith solar_azimuth dni
  let poa_direct := poa_beam * (1 - f_x) * iam
  { poa_global := poa_direct + poa_diffuse, poa_direct := poa_direct, poa_diffuse := poa_diffuse
    poa_ground_diffuse := poa_gnd_pv, poa_sky_diffuse := poa_sky_pv, shaded_fraction := f_x }

/-- `get_irradiance_poa`, pvlib/bifacial/infinite_sheds.py:169-373.  Any model name other than 'haydavies' is treated
as isotropic. -/
def shedsGetIrradiancePoa (surface_tilt surface_azimuth solar_zenith solar_azimuth gcr height pitch ghi dhi dni albedo : Fl)
    (model : String) (dni_extra : Option Fl) (iam : Fl) : Except PyErr PoaSide :=
  if model = "haydavies" then
    match dni_extra with
    | none => .error .valueError
    | some e =>
        let m := moveCircumsolar (fun t a => haydavies t a dhi dni e solar_zenith solar_azimuth)
          solar_zenith solar_azimuth dhi dni
        .ok (shedsSide surface_tilt surface_azimuth solar_zenith solar_azimuth gcr height pitch ghi m.2 m.1 albedo iam)
  else .ok (shedsSide surface_tilt surface_azimuth solar_zenith solar_azimuth gcr height pitch ghi dhi dni albedo iam)

/-- `_backside`, pvlib/bifacial/infinite_sheds.py:593-596. -/
def backside (tilt surface_azimuth : Fl) : Fl × Fl := (180 - tilt, Fl.mod (180 + surface_azimuth) 360)

/-- Output of the two-sided `get_irradiance`. (Used for pvlib/bifacial/infinite_sheds.py:376-590.) -/
structure Bifacial where
  front : PoaSide
  back : PoaSide
  poa_global : Fl

/-- `get_irradiance`, pvlib/bifacial/infinite_sheds.py:376-590. -/
def shedsGetIrradiance (surface_tilt surface_azimuth solar_zenith solar_azimuth gcr height pitch ghi dhi dni albedo : Fl)
    (model : String) (dni_extra : Option Fl) (iam_front iam_back bifaciality shade_factor transmission_factor : Fl) :
    Except PyErr Bifacial :=
  let bs := backside surface_tilt surface_azimuth
  (shedsGetIrradiancePoa surface_tilt surface_azimuth solar_zenith solar_azimuth gcr height pitch ghi dhi dni albedo
      model dni_extra iam_front).bind fun front =>
    (shedsGetIrradiancePoa bs.1 bs.2 solar_zenith solar_azimuth gcr height pitch ghi dhi dni albedo
        model dni_extra iam_back).bind fun back =>
      let effects := (1 + shade_factor) * (1 + transmission_factor)
      .ok { front := front, back := back, poa_global := front.poa_global + back.poa_global * bifaciality * effects }

/-! ### ants2d -/

/-- `_shaded_fraction`, pvlib/bifacial/ants2d.py:17-88. -/
def antsShadedFraction (tracker_rotation phi gcr : Fl) (x0 x1 : Fl) : Fl :=
  let f_s := shadedFraction1d phi 90 0 tracker_rotation 1 (1 / gcr)
  let y0 := npwhere (tracker_rotation < 0) (1 - x1) x0
  let y1 := npwhere (tracker_rotation < 0) (1 - x0) x1
  clip ((f_s - y0) / (y1 - y0)) 0 1

/-- A ground segment: its bounds, and the irradiance on it times albedo is taken in `antsSide`. (Used for pvlib/bifacial/ants2d.py:542-556.) -/
structure GroundSegment where
  g0 : Fl
  g1 : Fl
  albedo : Fl

/-- Irradiance on one ground segment: direct and diffuse, pvlib/bifacial/ants2d.py:542-556 (the segment bounds are
arrays, so `_unshaded_ground_fraction` does not replace height and pitch). -/
def groundLight (tracker_rotation phi gcr height pitch ghi dhi : Fl) (max_rows : ℤ) (g : GroundSegment) : Fl × Fl :=
  let unshaded := unshadedGround tracker_rotation phi gcr height pitch max_rows 85 g.g0 g.g1
  let shaded := 1 - unshaded
  ((1 - shaded) * (ghi - dhi), vfGroundSky2dInteg tracker_rotation gcr height pitch max_rows g.g0 g.g1 * dhi)

/-- `_ants2d_singleside` for one row segment, pvlib/bifacial/ants2d.py:91-216.  `light` gives the total irradiance
on each ground segment.  The segment bounds are arrays in the caller, so the "whole ground and row" shortcut of
the view factors does not apply to them; `vfRowGround2dInteg` is entered past it. -/
def antsSide (tracker_rotation cos_aoi phi gcr height pitch dni dhi : Fl) (light : List (GroundSegment × Fl))
    (x0 x1 : Fl) (max_rows : ℤ) : PoaSide :=
  let projection := maximum cos_aoi 0
  let f := antsShadedFraction tracker_rotation phi gcr x0 x1
  let poa_direct := dni * projection * (1 - f)
  let poa_sky_diffuse := vfRowSky2dInteg tracker_rotation gcr x0 x1 * dhi
  let poa_ground_diffuse := Fl.sum (light.map fun p =>
    Fl.sum ((arange (-max_rows) max_rows).map fun (k : ℤ) =>
      maximum (rowGroundSlat tracker_rotation gcr height pitch x0 x1 p.1.g0 p.1.g1 k) 0) * p.1.albedo * p.2)
  let poa_diffuse := poa_ground_diffuse + poa_sky_diffuse
  { poa_global := poa_direct + poa_diffuse, poa_direct := poa_direct, poa_diffuse := poa_diffuse
    poa_sky_diffuse := poa_sky_diffuse, poa_ground_diffuse := poa_ground_diffuse, shaded_fraction := f }

/-- `_apply_sky_diffuse_model`, pvlib/bifacial/ants2d.py:219-267: (dni, dhi).  `diffuse name e airmass tilt azimuth` is
the named sky model. -/
def applySkyDiffuseModel (diffuse : String → Fl → Option Fl → Fl → Fl → Sky) (dni dhi : Fl) (model : String)
    (solar_zenith solar_azimuth : Fl) (dni_extra airmass : Option Fl) : Except PyErr (Fl × Fl) :=
  if model = "haydavies" then
    match dni_extra with
    | none => .error .valueError
    | some e => .ok (moveCircumsolar (diffuse model e none) solar_zenith solar_azimuth dhi dni)
  else if model = "perez" ∨ model = "perez-driesse" then
    match dni_extra, airmass with
    | some e, some am => .ok (moveCircumsolar (diffuse model e (some am)) solar_zenith solar_azimuth dhi dni)
    | _, _ => .error .valueError
  else if model ≠ "isotropic" then .error .valueError
  else .ok (dni, dhi)

/-- The wrap into [-180, 180), pvlib/bifacial/ants2d.py:287, 574, 581. -/
def wrap180 (r : Fl) : Fl := Fl.mod (r + 180) 360 - 180

/-- `_apply_ground_slope`, pvlib/bifacial/ants2d.py:270-296: (height, pitch, gcr, tracker_rotation, ghi). -/
def applyGroundSlope (height pitch gcr tracker_rotation dni dhi solar_zenith solar_azimuth axis_tilt
    axis_azimuth cross_axis_slope : Fl) : Fl × Fl × Fl × Fl × Fl :=
  let slope_azimuth := axis_azimuth + Fl.degrees (Fl.arctan2 (sind cross_axis_slope)
    (cosd cross_axis_slope * sind axis_tilt))
  let slope_tilt := acosd (cosd axis_tilt * cosd cross_axis_slope)
  (height * cosd slope_tilt, pitch / cosd cross_axis_slope, gcr * cosd cross_axis_slope,
    wrap180 (tracker_rotation - cross_axis_slope),
    dhi + dni * maximum (aoiProjection slope_tilt slope_azimuth solar_zenith solar_azimuth) 0)

/-- `np.linspace(0, 1, n + 1)` cut into `n` pairs, pvlib/bifacial/ants2d.py:509-510, 516-517. -/
def segments (n : ℕ) : List (Fl × Fl) :=
  (List.range n).map fun (i : ℕ) => (fin ((i : ℝ) / n), fin (((i : ℝ) + 1) / n))

/-- The result for one row segment: front and back. (Used for pvlib/bifacial/ants2d.py:299-635.) -/
structure AntsRow where
  front : PoaSide
  back : PoaSide

/-- `get_irradiance`, pvlib/bifacial/ants2d.py:299-635, for one time, `airmass` and `dni_extra` as completed by the
caller (pvlib/bifacial/ants2d.py:488-494), `max_rows` given: per row segment front and back, and the light on the ground
segments (direct, diffuse). -/
def antsGetIrradiance (diffuse : String → Fl → Option Fl → Fl → Fl → Sky)
    (tracker_rotation axis_azimuth solar_zenith solar_azimuth gcr height pitch ghi dhi dni : Fl) (model : String)
    (dni_extra airmass : Option Fl) (rows : List (Fl × Fl)) (ground : List GroundSegment)
    (axis_tilt cross_axis_slope : Fl) (max_rows : Option ℤ) : Except PyErr (List AntsRow × List (Fl × Fl)) :=
  (applySkyDiffuseModel diffuse dni dhi model solar_zenith solar_azimuth dni_extra airmass).bind fun m =>
    let dni := m.1
    let dhi := m.2
    let sloped : Prop := axis_tilt ≠ 0 ∨ cross_axis_slope ≠ 0
    let s := applyGroundSlope height pitch gcr tracker_rotation dni dhi solar_zenith solar_azimuth axis_tilt
      axis_azimuth cross_axis_slope
    let height := if sloped then s.1 else height
    let pitch := if sloped then s.2.1 else pitch
    let gcr := if sloped then s.2.2.1 else gcr
    let rotation := if sloped then s.2.2.2.1 else tracker_rotation
    let ghi := if sloped then s.2.2.2.2 else ghi
    let n := max_rows.getD (maxRows height pitch 4)
    let phi := projectedSolarZenithAngle solar_zenith solar_azimuth axis_tilt axis_azimuth - cross_axis_slope
    let light := ground.map (groundLight rotation phi gcr height pitch ghi dhi n)
    let total := ground.zip (light.map fun l => l.1 + l.2)
    let fo := calcSurfaceOrientation tracker_rotation axis_tilt axis_azimuth
    let bo := calcSurfaceOrientation (wrap180 (tracker_rotation + 180)) axis_tilt axis_azimuth
    let cosF := aoiProjection fo.1 fo.2 solar_zenith solar_azimuth
    let cosB := aoiProjection bo.1 bo.2 solar_zenith solar_azimuth
    .ok (rows.map fun x =>
      { front := antsSide rotation cosF phi gcr height pitch dni dhi total x.1 x.2 n
        back := antsSide (wrap180 (rotation + 180)) cosB phi gcr height pitch dni dhi total (1 - x.2) (1 - x.1) n },
      light)

/-! ### loss_models -/

/-- `power_mismatch_deline`, pvlib/bifacial/loss_models.py:5-163 (`Polynomial.__call__` by Horner's rule). -/
def powerMismatchDeline (rmad : Fl) (coefficients : List Fl := [0, 0.142, 0.032 * 100]) (fill_factor : Option Fl := none)
    (fill_factor_reference : Fl := 0.79) : Fl :=
  let coefs := match fill_factor with
    | none => coefficients
    | some f => if f = 0 then coefficients else coefficients.map fun c => c * f / fill_factor_reference
  coefs.foldr (fun c acc => acc * rmad + c) 0

end Pvlib.Bifacial
end
