import Verif.Model.Atmosphere

/-! # Model of `pvlib/irradiance.py`: geometry and transposition -/

noncomputable section
open scoped Classical
open Real
namespace Pvlib.Irradiance
open Fl Pvlib.Tools

/-- `aoi_projection`, pvlib/irradiance.py:166-210. -/
def aoiProjection (surface_tilt surface_azimuth solar_zenith solar_azimuth : Fl) : Fl :=
  let projection := cosd surface_tilt * cosd solar_zenith +
    sind surface_tilt * sind solar_zenith * cosd (solar_azimuth - surface_azimuth)
  clip projection (-1) 1

/-- `aoi`, pvlib/irradiance.py:213-246. -/
def aoi (surface_tilt surface_azimuth solar_zenith solar_azimuth : Fl) : Fl :=
  degrees (arccos (aoiProjection surface_tilt surface_azimuth solar_zenith solar_azimuth))

/-- `beam_component`, pvlib/irradiance.py:249-276. -/
def beamComponent (surface_tilt surface_azimuth solar_zenith solar_azimuth dni : Fl) : Fl :=
  maximum (dni * aoiProjection surface_tilt surface_azimuth solar_zenith solar_azimuth) 0

/-- `pvlib.albedo.SURFACE_ALBEDOS`, pvlib/albedo.py:12-27. -/
def surfaceAlbedos : List (String × Fl) :=
  [("urban", 0.18), ("grass", 0.20), ("fresh grass", 0.26), ("soil", 0.17), ("sand", 0.40),
   ("snow", 0.65), ("fresh snow", 0.75), ("asphalt", 0.12), ("concrete", 0.30),
   ("aluminum", 0.85), ("copper", 0.74), ("fresh steel", 0.35), ("dirty steel", 0.08),
   ("sea", 0.06)]

/-- `get_ground_diffuse`, pvlib/irradiance.py:581-649; unknown `surface_type` is a KeyError. -/
def groundDiffuse (surface_tilt ghi : Fl) (albedo : Fl := 0.25)
    (surface_type : Option String := none) : Except PyErr Fl :=
  let go (albedo : Fl) : Fl := ghi * albedo * (1 - Fl.cos (radians surface_tilt)) * 0.5
  match surface_type with
  | none => .ok (go albedo)
  | some s =>
      match surfaceAlbedos.lookup s with
      | some a => .ok (go a)
      | none => .error (.keyError s)

/-- What a sky-diffuse model returns: the total and its named components (in dict order). (Used for pvlib/irradiance.py:652-725.) -/
structure Sky where
  poa_sky_diffuse : Fl
  components : List (String × Fl)

/-- `isotropic`, pvlib/irradiance.py:652-725 (`.components` is what `return_components` adds). -/
def isotropic (surface_tilt dhi : Fl) : Sky :=
  let poa_sky_diffuse := dhi * (1 + cosd surface_tilt) * 0.5
  ⟨poa_sky_diffuse, [("poa_isotropic", poa_sky_diffuse)]⟩

/-- `klucher`, pvlib/irradiance.py:728-816. -/
def klucher (surface_tilt surface_azimuth dhi ghi solar_zenith solar_azimuth : Fl) : Fl :=
  let cos_tt := aoiProjection surface_tilt surface_azimuth solar_zenith solar_azimuth
  let cos_tt := maximum cos_tt 0
  let F := 1 - (dhi / ghi) ^ 2
  let F := npwhere (isnan F) 0 F
  let term1 := 0.5 * (1 + cosd surface_tilt)
  let term2 := 1 + F * sind (0.5 * surface_tilt) ^ 3
  let term3 := 1 + F * cos_tt ^ 2 * sind solar_zenith ^ 3
  dhi * term1 * term2 * term3

/-- The ratio `Rb` of haydavies/reindl, pvlib/irradiance.py:924-928, 1068-1076. -/
def projectionRatio (surface_tilt surface_azimuth solar_zenith solar_azimuth : Fl) : Fl :=
  let cos_tt := maximum (aoiProjection surface_tilt surface_azimuth solar_zenith solar_azimuth) 0
  cos_tt / maximum (cosd solar_zenith) 0.01745

/-- `haydavies`, pvlib/irradiance.py:819-954, after `Rb` is computed or taken from
`projection_ratio`. -/
def haydaviesRb (surface_tilt dhi dni dni_extra Rb : Fl) : Sky :=
  let AI := dni / dni_extra
  let term1 := 1 - AI
  let term2 := 0.5 * (1 + cosd surface_tilt)
  let poa_isotropic := maximum (dhi * term1 * term2) 0
  let poa_circumsolar := maximum (dhi * (AI * Rb)) 0
  ⟨poa_isotropic + poa_circumsolar,
    [("poa_isotropic", poa_isotropic), ("poa_circumsolar", poa_circumsolar)]⟩

/-- `haydavies`, pvlib/irradiance.py:819-954, with `projection_ratio=None`. -/
def haydavies (surface_tilt surface_azimuth dhi dni dni_extra solar_zenith solar_azimuth : Fl) : Sky :=
  haydaviesRb surface_tilt dhi dni dni_extra
    (projectionRatio surface_tilt surface_azimuth solar_zenith solar_azimuth)

/-- `reindl`, pvlib/irradiance.py:957-1109. -/
def reindl (surface_tilt surface_azimuth dhi dni ghi dni_extra solar_zenith solar_azimuth : Fl) : Sky :=
  let Rb := projectionRatio surface_tilt surface_azimuth solar_zenith solar_azimuth
  let AI := dni / dni_extra
  let HB := maximum (dni * cosd solar_zenith) 0
  let SVF := (1 + cosd surface_tilt) / 2
  let hb_to_ghi := npwhere (eqv ghi 0) 0 (HB / ghi)
  let h := Fl.sqrt hb_to_ghi * sind (surface_tilt / 2) ^ 3
  let term1 := (1 - AI) * SVF
  let term2 := AI * Rb
  let term3 := term1 * h
  ⟨dhi * (term1 + term2 + term3),
    [("poa_isotropic", dhi * term1), ("poa_circumsolar", dhi * term2),
     ("poa_horizon", dhi * term3)]⟩

/-- `king`, pvlib/irradiance.py:1118-1157. -/
def king (surface_tilt dhi ghi solar_zenith : Fl) : Fl :=
  let poa_sky_diffuse := dhi * (1 + cosd surface_tilt) / 2 +
    ghi * (0.012 * solar_zenith - 0.04) * (1 - cosd surface_tilt) / 2
  maximum poa_sky_diffuse 0

/-- A Perez coefficient table (rows 0-7; F1 and F2 triples), as returned by
`_get_perez_coefficients`, pvlib/irradiance.py:3295-3452. -/
structure PerezTable where
  F1 : Fin 8 → Fin 3 → ℝ
  F2 : Fin 8 → Fin 3 → ℝ

/-- Clearness bin of `perez`, pvlib/irradiance.py:1297-1303: `np.digitize` with the eight edges,
NaN mapped to 0, minus 1; `none` stands for `ebin = -1` (the appended NaN row). -/
def perezBin (eps : Fl) : Option (Fin 8) :=
  if isnan eps then none
  else if (6.2 : Fl) ≤ eps then some 7
  else if (4.5 : Fl) ≤ eps then some 6
  else if (2.8 : Fl) ≤ eps then some 5
  else if (1.95 : Fl) ≤ eps then some 4
  else if (1.5 : Fl) ≤ eps then some 3
  else if (1.23 : Fl) ≤ eps then some 2
  else if (1.065 : Fl) ≤ eps then some 1
  else if (0 : Fl) ≤ eps then some 0
  else none

/-- `F[ebin, j]` with the NaN row, pvlib/irradiance.py:1310-1317. -/
def perezRow (t : Fin 8 → Fin 3 → ℝ) (b : Option (Fin 8)) (j : Fin 3) : Fl :=
  match b with
  | none => nan
  | some i => fin (t i j)

/-- The geometry terms shared by `perez` and `perez_driesse`, pvlib/irradiance.py:1319-1329 and
1546-1556: term1 (isotropic), term2 (circumsolar), term3 (horizon). -/
def perezTerms (F1 F2 surface_tilt surface_azimuth solar_zenith solar_azimuth : Fl) : Fl × Fl × Fl :=
  let A := maximum (aoiProjection surface_tilt surface_azimuth solar_zenith solar_azimuth) 0
  let B := maximum (cosd solar_zenith) (cosd 85)
  (0.5 * (1 - F1) * (1 + cosd surface_tilt), F1 * A / B, F2 * sind surface_tilt)

/-- `perez`, pvlib/irradiance.py:1160-1357, for an arbitrary coefficient table. -/
def perez (t : PerezTable) (surface_tilt surface_azimuth dhi dni dni_extra solar_zenith
    solar_azimuth airmass : Fl) : Sky :=
  let kappa : Fl := 1.041
  let z := radians solar_zenith
  let delta := dhi * airmass / dni_extra
  let eps := ((dhi + dni) / dhi + kappa * z ^ 3) / (1 + kappa * z ^ 3)
  let ebin := perezBin eps
  let F1 := perezRow t.F1 ebin 0 + perezRow t.F1 ebin 1 * delta + perezRow t.F1 ebin 2 * z
  let F1 := maximum F1 0
  let F2 := perezRow t.F2 ebin 0 + perezRow t.F2 ebin 1 * delta + perezRow t.F2 ebin 2 * z
  let T := perezTerms F1 F2 surface_tilt surface_azimuth solar_zenith solar_azimuth
  let poa_sky_diffuse := maximum (dhi * (T.1 + T.2.1 + T.2.2)) 0
  let poa_sky_diffuse := npwhere (isnan airmass) 0 poa_sky_diffuse
  let mask := eqv poa_sky_diffuse 0
  ⟨poa_sky_diffuse,
    [("poa_isotropic", npwhere mask 0 (dhi * T.1)),
     ("poa_circumsolar", npwhere mask 0 (dhi * T.2.1)),
     ("poa_horizon", npwhere mask 0 (dhi * T.2.2))]⟩

/-- `_calc_delta`, pvlib/irradiance.py:1360-1375. -/
def calcDelta (dhi dni_extra solar_zenith : Fl) (airmass : Option Fl) : Fl :=
  let airmass := airmass.getD (Atmosphere.kastenyoung solar_zenith)
  let max_airmass := Atmosphere.kastenyoung 90
  let airmass := npwhere (90 ≤ solar_zenith) max_airmass airmass
  dhi / (dni_extra / airmass)

/-- `_calc_zeta`, pvlib/irradiance.py:1378-1400. -/
def calcZeta (dhi dni zenith : Fl) : Fl :=
  let zeta := dni / (dhi + dni)
  let zeta := npwhere (eqv dhi 0) 0 zeta
  let kappa : Fl := 1.041
  let kterm := kappa * radians zenith ^ 3
  zeta / (1 - kterm * (zeta - 1))

/-- The knot vector of `_f`, pvlib/irradiance.py:1410-1413. -/
def pdKnots : List ℝ :=
  [0, 0, 0, 0.061, 0.187, 0.333, 0.487, 0.643, 0.778, 0.839, 1, 1, 1]

/-- The coefficient array of `_f`, pvlib/irradiance.py:1415-1428 (one row per control point, columns
F11 F12 F13 F21 F22 F23). -/
def pdCoefs : List (List ℝ) :=
  [[-0.053, 0.529, -0.028, -0.071, 0.061, -0.019],
   [-0.008, 0.588, -0.062, -0.060, 0.072, -0.022],
   [0.131, 0.770, -0.167, -0.026, 0.106, -0.032],
   [0.328, 0.471, -0.216, 0.069, -0.105, -0.028],
   [0.557, 0.241, -0.300, 0.086, -0.085, -0.012],
   [0.861, -0.323, -0.355, 0.240, -0.467, -0.008],
   [1.212, -1.239, -0.444, 0.305, -0.797, 0.047],
   [1.099, -1.847, -0.365, 0.275, -1.132, 0.124],
   [0.544, 0.157, -0.213, 0.118, -1.455, 0.292],
   [0.544, 0.157, -0.213, 0.118, -1.455, 0.292],
   [0, 0, 0, 0, 0, 0], [0, 0, 0, 0, 0, 0], [0, 0, 0, 0, 0, 0]]

/-- `t[i]` for the knot vector. (Used for pvlib/irradiance.py:1403-1434.) -/
def pdT (i : ℕ) : ℝ := pdKnots.getD i 0
/-- `coefs[i-1, j-1][m]` after `coefs.T.reshape((2, 3, 13))`, pvlib/irradiance.py:1430-1432. -/
def pdC (i j m : ℕ) : ℝ := (pdCoefs.getD m []).getD (3 * (i - 1) + (j - 1)) 0

/-- Knot interval search of FITPACK `splev` (called at pvlib/irradiance.py:1434): the largest
`l` in 2..9 with `t[l] <= x` (2 when `x` is left of the first knot). -/
def pdInterval (x : ℝ) : ℕ :=
  if 0.839 ≤ x then 9 else if 0.778 ≤ x then 8 else if 0.643 ≤ x then 7
  else if 0.487 ≤ x then 6 else if 0.333 ≤ x then 5 else if 0.187 ≤ x then 4
  else if 0.061 ≤ x then 3 else 2

/-- FITPACK `fpbspl` for degree 2: the three non-zero quadratic B-splines at `x` in interval `l`
(third-party algorithm, transcribed: Cox–de Boor recursion). (Used for pvlib/irradiance.py:1403-1434.) -/
def pdBasis (l : ℕ) (x : ℝ) : ℝ × ℝ × ℝ :=
  -- j = 1
  let f := 1 / (pdT (l + 1) - pdT l)
  let h1 := f * (pdT (l + 1) - x)
  let h2 := f * (x - pdT l)
  -- j = 2
  let f1 := h1 / (pdT (l + 1) - pdT (l - 1))
  let f2 := h2 / (pdT (l + 2) - pdT l)
  (f1 * (pdT (l + 1) - x), f1 * (x - pdT (l - 1)) + f2 * (pdT (l + 2) - x), f2 * (x - pdT l))

/-- `_f(i, j, zeta)`, pvlib/irradiance.py:1403-1434, on a real `zeta`. -/
def pdSpline (i j : ℕ) (x : ℝ) : ℝ :=
  let l := pdInterval x
  let b := pdBasis l x
  pdC i j (l - 2) * b.1 + pdC i j (l - 1) * b.2.1 + pdC i j l * b.2.2

/-- `_f(i, j, zeta)`, pvlib/irradiance.py:1403-1434.  Simplification: a non-finite `zeta` gives NaN
(the polynomial of an infinite argument is not modelled). -/
def pdF (i j : ℕ) : Fl → Fl
  | fin x => fin (pdSpline i j x)
  | _ => nan

/-- `perez_driesse`, pvlib/irradiance.py:1437-1573.  `f i j zeta` is the quadratic spline `_f`,
a parameter here (the real one is `pdF`). -/
def perezDriesse (f : ℕ → ℕ → Fl → Fl) (surface_tilt surface_azimuth dhi dni dni_extra solar_zenith
    solar_azimuth : Fl) (airmass : Option Fl) : Sky :=
  let delta := calcDelta dhi dni_extra solar_zenith airmass
  let zeta := calcZeta dhi dni solar_zenith
  let z := radians solar_zenith
  let F1 := f 1 1 zeta + f 1 2 zeta * delta + f 1 3 zeta * z
  let F2 := f 2 1 zeta + f 2 2 zeta * delta + f 2 3 zeta * z
  let F1 := clip F1 0 0.9
  let T := perezTerms F1 F2 surface_tilt surface_azimuth solar_zenith solar_azimuth
  let poa_sky_diffuse := maximum (dhi * (T.1 + T.2.1 + T.2.2)) 0
  ⟨poa_sky_diffuse,
    [("poa_isotropic", dhi * T.1), ("poa_circumsolar", dhi * T.2.1),
     ("poa_horizon", dhi * T.2.2)]⟩

/-- Result of `poa_components` / `get_total_irradiance` (one row). (Used for pvlib/irradiance.py:504-578.) -/
structure Poa where
  (poa_global poa_direct poa_diffuse poa_sky_diffuse poa_ground_diffuse : Fl)
  components : List (String × Fl)

/-- `poa_components`, pvlib/irradiance.py:504-578. -/
def poaComponents (aoi dni : Fl) (sky : Sky) (poa_ground_diffuse : Fl) : Poa :=
  let poa_direct := maximum (dni * Fl.cos (radians aoi)) 0
  let poa_diffuse := sky.poa_sky_diffuse + poa_ground_diffuse
  let poa_global := poa_direct + poa_diffuse
  ⟨poa_global, poa_direct, poa_diffuse, sky.poa_sky_diffuse, poa_ground_diffuse, sky.components⟩

/-- `get_sky_diffuse`, pvlib/irradiance.py:376-501.  With `return_components = false` the component
list is empty.  `perezTable` maps `model_perez` to its table (KeyError when absent) and `f` is the
`perez_driesse` spline. -/
def getSkyDiffuse (perezTable : String → Option PerezTable) (f : ℕ → ℕ → Fl → Fl)
    (surface_tilt surface_azimuth solar_zenith solar_azimuth dni ghi dhi : Fl)
    (dni_extra airmass : Option Fl) (model : String) (model_perez : String)
    (return_components : Bool) : Except PyErr Sky :=
  let model := pyLower model
  let strip (s : Sky) : Sky := if return_components then s else ⟨s.poa_sky_diffuse, []⟩
  if return_components ∧ (model = "klucher" ∨ model = "king") then .error .valueError
  else if dni_extra.isNone ∧ (model = "haydavies" ∨ model = "reindl" ∨ model = "perez" ∨
      model = "perez-driesse") then .error .valueError
  else if model = "isotropic" then .ok (strip (isotropic surface_tilt dhi))
  else if model = "klucher" then
    .ok ⟨klucher surface_tilt surface_azimuth dhi ghi solar_zenith solar_azimuth, []⟩
  else if model = "haydavies" then
    .ok (strip (haydavies surface_tilt surface_azimuth dhi dni (dni_extra.getD nan)
      solar_zenith solar_azimuth))
  else if model = "reindl" then
    .ok (strip (reindl surface_tilt surface_azimuth dhi dni ghi (dni_extra.getD nan)
      solar_zenith solar_azimuth))
  else if model = "king" then .ok ⟨king surface_tilt dhi ghi solar_zenith, []⟩
  else if model = "perez" then
    match perezTable model_perez with
    | none => .error (.keyError model_perez)
    | some t =>
      .ok (strip (perez t surface_tilt surface_azimuth dhi dni (dni_extra.getD nan)
        solar_zenith solar_azimuth (airmass.getD (Atmosphere.kastenyoung solar_zenith))))
  else if model = "perez-driesse" then
    .ok (strip (perezDriesse f surface_tilt surface_azimuth dhi dni (dni_extra.getD nan)
      solar_zenith solar_azimuth airmass))
  else .error .valueError

/-- `get_total_irradiance`, pvlib/irradiance.py:279-373. -/
def getTotalIrradiance (perezTable : String → Option PerezTable) (f : ℕ → ℕ → Fl → Fl)
    (surface_tilt surface_azimuth solar_zenith solar_azimuth dni ghi dhi : Fl)
    (dni_extra airmass : Option Fl) (albedo : Fl) (surface_type : Option String)
    (model : String) (model_perez : String) (diffuse_components : Bool) : Except PyErr Poa := do
  let sky ← getSkyDiffuse perezTable f surface_tilt surface_azimuth solar_zenith solar_azimuth
    dni ghi dhi dni_extra airmass model model_perez diffuse_components
  let ground ← groundDiffuse surface_tilt ghi albedo surface_type
  let aoi_ := aoi surface_tilt surface_azimuth solar_zenith solar_azimuth
  return poaComponents aoi_ dni sky ground

end Pvlib.Irradiance
end
