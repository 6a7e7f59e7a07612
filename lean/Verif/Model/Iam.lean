import Verif.Model.Tools

/-! # Model of `pvlib/iam.py` (incidence angle modifiers)

All functions are elementwise in `aoi` / `surface_tilt`; arrays, Series and scalars differ only in the container of
the result.  Model parameters (`b`, `n`, `K`, `L`, `n_ar`, `a_r`, ...) are scalars.  `np.where`, `np.maximum`,
`np.clip` keep their NaN behaviour. -/

noncomputable section
open scoped Classical
open Real
namespace Pvlib.Iam
open Fl Pvlib.Tools

/-- `ashrae`, pvlib/iam.py:85-94.  The NaN-tolerant mask (lines 86-87) is false at NaN. -/
def ashrae (aoi b : Fl) : Fl :=
  let iam := 1 - b * (1 / Fl.cos (radians aoi) - 1)
  let iam := npwhere (90 ≤ Fl.abs aoi) 0 iam
  maximum 0 iam

/-- `np.isclose(a, b)` (and `np.allclose` on scalars), default tolerances; used at pvlib/iam.py:162, 194, 229. -/
def isclose (a b : Fl) : Prop :=
  if isfinite a ∧ isfinite b then Fl.abs (a - b) ≤ fin (1e-8) + fin (1e-5) * Fl.abs b else eqv a b

/-- `n2`, pvlib/iam.py:161-166. -/
def physicalN2 (n : Fl) (n_ar : Option Fl) : Fl :=
  match n_ar with
  | none => n
  | some a => if isclose a 1 then n else a

/-- The transmittance factors of a second interface, pvlib/iam.py:194-215: the factor on `tau_s`, `tau_p`, `tau_0`,
and the cosine in the last layer.  `sintheta`, `costheta` are those of the middle layer. -/
def coating (n2 n3 sintheta costheta rho12_s rho12_p rho12_0 : Fl) : Fl × Fl × Fl × Fl :=
  let n2costheta2 := n2 * costheta
  let n3costheta2 := n3 * costheta
  let sintheta3 := n2 / n3 * sintheta
  let costheta3 := Fl.sqrt (1 - sintheta3 ^ 2)
  let n2costheta3 := n2 * costheta3
  let n3costheta3 := n3 * costheta3
  let rho23_s := ((n2costheta2 - n3costheta3) / (n2costheta2 + n3costheta3)) ^ 2
  let rho23_p := ((n2costheta3 - n3costheta2) / (n2costheta3 + n3costheta2)) ^ 2
  let rho23_0 := ((n2 - n3) / (n2 + n3)) ^ 2
  ((1 - rho23_s) / (1 - rho23_s * rho12_s), (1 - rho23_p) / (1 - rho23_p * rho12_p),
    (1 - rho23_0) / (1 - rho23_0 * rho12_0), costheta3)

/-- `physical`, pvlib/iam.py:161-234 (`n1 = 1` throughout). -/
def physical (aoi n K L : Fl) (n_ar : Option Fl := none) : Fl :=
  let n2 := physicalN2 n n_ar
  let costheta1 := maximum 0 (cosd aoi)
  let sintheta1 := Fl.sqrt (1 - costheta1 ^ 2)
  let n1costheta1 := costheta1
  let n2costheta1 := n2 * costheta1
  let sintheta2 := 1 / n2 * sintheta1
  let costheta2 := Fl.sqrt (1 - sintheta2 ^ 2)
  let n1costheta2 := costheta2
  let n2costheta2 := n2 * costheta2
  let rho12_s := ((n1costheta1 - n2costheta2) / (n1costheta1 + n2costheta2)) ^ 2
  let rho12_p := ((n1costheta2 - n2costheta1) / (n1costheta2 + n2costheta1)) ^ 2
  let rho12_0 := ((1 - n2) / (1 + n2)) ^ 2
  let tau_s := 1 - rho12_s
  let tau_p := 1 - rho12_p
  let tau_0 := 1 - rho12_0
  let co := coating n2 n sintheta2 costheta2 rho12_s rho12_p rho12_0
  let coated := ¬ isclose n n2
  let tau_s := if coated then tau_s * co.1 else tau_s
  let tau_p := if coated then tau_p * co.2.1 else tau_p
  let tau_0 := if coated then tau_0 * co.2.2.1 else tau_0
  let costheta := if coated then co.2.2.2 else costheta2
  let tau_s := tau_s * Fl.exp (-K * L / costheta)
  let tau_p := tau_p * Fl.exp (-K * L / costheta)
  let tau_0 := tau_0 * Fl.exp (-K * L)
  let iam := (tau_s + tau_p) / 2 / tau_0
  if isclose n2 1 then npwhere (90 ≤ aoi) 0 iam else iam

/-- `martin_ruiz`, pvlib/iam.py:299-314. -/
def martinRuiz (aoi a_r : Fl) : Except PyErr Fl :=
  if a_r ≤ 0 then .error .valueError
  else
    let iam := (1 - Fl.exp (-cosd aoi / a_r)) / (1 - Fl.exp (-1 / a_r))
    .ok (npwhere (90 ≤ Fl.abs aoi) 0 iam)

/-- The replacement of horizontal and upside-down tilts, pvlib/iam.py:393-396. -/
def tiltNudge (tilt : Fl) : Fl :=
  let t := npwhere (eqv tilt 0) (fin 1e-06) tilt
  npwhere (eqv t 180) (180 - fin 1e-06) t

/-- `martin_ruiz_diffuse`, pvlib/iam.py:385-422: `(iam_sky, iam_ground)`. -/
def martinRuizDiffuse (tilt a_r c1 : Fl) (c2 : Option Fl := none) : Fl × Fl :=
  let surface_tilt := tiltNudge tilt
  let c2 := match c2 with
    | none => fin 0.5 * a_r - fin 0.154
    | some c => c
  let beta := radians surface_tilt
  let sin_beta := npwhere (surface_tilt < 90) (Fl.sin beta) (Fl.sin (fin π - beta))
  let trig_term_sky := sin_beta + (fin π - beta - sin_beta) / (1 + Fl.cos beta)
  let trig_term_gnd := sin_beta + (beta - sin_beta) / (1 - Fl.cos beta)
  (1 - Fl.exp (-(c1 + c2 * trig_term_sky) * trig_term_sky / a_r),
    1 - Fl.exp (-(c1 + c2 * trig_term_gnd) * trig_term_gnd / a_r))

/-- `MIN_REF_VALS.get(method, 2)` for string methods, pvlib/iam.py:474. -/
def minRefVals (method : String) : ℕ :=
  if method = "linear" then 2 else if method = "quadratic" then 3 else if method = "cubic" then 4 else 2

/-- The accepted interpolation methods, pvlib/iam.py:484-500. -/
def interpMethods : List String :=
  ["linear", "quadratic", "cubic", "nearest", "nearest-up", "zero", "slinear", "previous", "next"]

/-- `interp`, pvlib/iam.py:472-514.  The scipy interpolator is a parameter: `mk method theta_ref iam_ref` is the
object built at lines 486-496, which may refuse its data.  `method` is a string (the integer keys 1, 2, 3 of
`MIN_REF_VALS` are refused at line 498, like any other unknown method). -/
def interp (mk : String → List Fl → List Fl → Except PyErr (Fl → Fl)) (aoi : Fl) (theta_ref iam_ref : List Fl)
    (method : String := "linear") (normalize : Bool := true) : Except PyErr Fl :=
  if theta_ref.length < minRefVals method then .error .valueError
  else if ∃ x ∈ iam_ref, x < 0 then .error .valueError
  else if method ∉ interpMethods then .error .valueError
  else match mk method theta_ref iam_ref with
    | .error e => .error e
    | .ok f =>
      let iam := maximum (f (Fl.abs aoi)) 0
      .ok (if normalize then iam / f 0 else iam)

/-- The degree-1 `make_interp_spline` (method `'linear'`, pvlib/iam.py:486-487) through points with increasing
abscissae: piecewise linear, the end pieces extrapolated.  (scipy raises ValueError for non-increasing abscissae
and for lists of different lengths; both are outside this definition, which takes the points as pairs.) -/
def linSpline : List (ℝ × ℝ) → ℝ → ℝ
  | [], _ => 0
  | [p], _ => p.2
  | [p, q], x => p.2 + (q.2 - p.2) / (q.1 - p.1) * (x - p.1)
  | p :: q :: r :: rest, x =>
      if x ≤ q.1 then p.2 + (q.2 - p.2) / (q.1 - p.1) * (x - p.1) else linSpline (q :: r :: rest) x

/-- `np.polyval([B5, ..., B0], aoi)` (Horner), pvlib/iam.py:568-571. -/
def polyval (c : List Fl) (x : Fl) : Fl := c.foldl (fun y a => y * x + a) 0

/-- `sapm`, pvlib/iam.py:568-581; `upper = none` leaves the result unbounded above. -/
def sapm (aoi B0 B1 B2 B3 B4 B5 : Fl) (upper : Option Fl := none) : Fl :=
  let iam := polyval [B5, B4, B3, B2, B1, B0] aoi
  let iam := match upper with
    | none => maximum iam 0
    | some u => clip iam 0 u
  npwhere (aoi < 0) 0 iam

/-- `schlick`, pvlib/iam.py:848-857. -/
def schlick (aoi : Fl) : Fl := npwhere (90 ≤ Fl.abs aoi) 0 (1 - (1 - cosd aoi) ^ 5)

/-- `schlick_diffuse`, pvlib/iam.py:938-964: `(cuk, cug)`. -/
def schlickDiffuse (tilt : Fl) : Fl × Fl :=
  let cosB := cosd tilt
  let sinB := sind tilt
  let pi := fin π
  let cuk := (2 / (pi * (1 + cosB))) * (
    fin (30 / 7) * pi - fin (160 / 21) * radians tilt - fin (10 / 3) * pi * cosB
      + fin (160 / 21) * cosB * sinB - fin (5 / 3) * pi * cosB * sinB ^ 2 + fin (20 / 7) * cosB * sinB ^ 3
      - fin (5 / 16) * pi * cosB * sinB ^ 4 + fin (16 / 105) * cosB * sinB ^ 5)
  let cug := 40 / (21 * (1 - cosB)) - (1 + cosB) / (1 - cosB) * cuk
  (cuk, npwhere (tilt < fin 1e-6) 0 cug)

/-! ### Marion's solid-angle integration -/

/-- `num`, pvlib/iam.py:724-730: the default number of increments per region. -/
def defaultNum (region : String) : Except PyErr ℕ :=
  if region = "sky" ∨ region = "ground" then .ok 180 else if region = "horizon" then .ok 1800
  else .error .valueError

/-- Does the band starting at `phi` (width `ai`) belong to the region?  pvlib/iam.py:743-750. -/
def regionMask (region : String) (ai phi : ℝ) : Prop :=
  if region = "sky" then phi + ai ≤ π / 2
  else if region = "horizon" then 89.5 * π / 180 ≤ phi ∧ phi + ai ≤ π / 2
  else phi ≥ π / 2

/-- The cells `(phi_1, psi_1)` of the region, pvlib/iam.py:736-760 (phi and psi grids, masked, then the Cartesian
product). -/
def marionCells (region : String) (num : ℕ) : List (ℝ × ℝ) :=
  let ai := π / num
  (((List.range num).map fun (i : ℕ) => (i : ℝ) * ai).filter fun phi => decide (regionMask region ai phi)).flatMap
    fun phi => (List.range (2 * num)).map fun (j : ℕ) => (phi, (j : ℝ) * ai)

/-- One cell's contribution to numerator and denominator, pvlib/iam.py:761-784. -/
def marionCell (function : Fl → Fl) (beta : Fl) (ai : ℝ) (cell : ℝ × ℝ) : Fl × Fl :=
  let phi_1 := cell.1
  let phi_2 := phi_1 + ai
  let phi_avg := phi_1 + 0.5 * ai
  let psi_avg := cell.2 + 0.5 * ai
  let term_1 := Fl.cos beta * fin (Real.cos phi_avg)
  let term_2 := Fl.sin beta * fin (Real.sin phi_avg) * fin (Real.cos psi_avg)
  let cosaoi := term_1 + term_2
  let aoi := Fl.arccos cosaoi
  let dAs := fin (ai * (Real.cos phi_1 - Real.cos phi_2))
  let cosaoi_dAs := npwhere (aoi < fin (π / 2)) (cosaoi * dAs) 0
  (function (degrees aoi) * cosaoi_dAs, cosaoi_dAs)

/-- `marion_integrate` once `num` is known, pvlib/iam.py:732-800 (the region has been checked). -/
def marionFd (function : Fl → Fl) (tilt : Fl) (region : String) (num : ℕ) : Fl :=
  let beta := radians tilt
  let ai := π / num
  let cs := (marionCells region num).map (marionCell function beta ai)
  let numerator := Fl.sum (cs.map Prod.fst)
  let denominator := Fl.sum (cs.map Prod.snd)
  npwhere (¬ eqv denominator 0 ∨ ¬ isfinite beta) (numerator / denominator) 0

/-- `marion_integrate`, pvlib/iam.py:660-800 (`np.pi/num` at line 736 raises for `num = 0`). -/
def marionIntegrate (function : Fl → Fl) (tilt : Fl) (region : String) (num : Option ℕ := none) : Except PyErr Fl :=
  match (match num with
    | none => defaultNum region
    | some k => .ok k) with
  | .error e => .error e
  | .ok k =>
    if k = 0 then .error .zeroDivision
    else if region ≠ "sky" ∧ region ≠ "horizon" ∧ region ≠ "ground" then .error .valueError
    else .ok (marionFd function tilt region k)

/-- The models `marion_diffuse` knows, pvlib/iam.py:639-645. -/
def marionModels : List String := ["physical", "ashrae", "sapm", "martin_ruiz", "schlick"]

/-- `marion_diffuse`, pvlib/iam.py:639-657: `iam model kwargs` is the selected model function with the keyword
arguments bound (line 652); the result is the dict in insertion order. -/
def marionDiffuse (iam : String → Fl → Fl) (model : String) (tilt : Fl) : Except PyErr (List (String × Fl)) :=
  if model ∉ marionModels then .error .valueError
  else match marionIntegrate (iam model) tilt "sky", marionIntegrate (iam model) tilt "horizon",
      marionIntegrate (iam model) tilt "ground" with
    | .ok s, .ok h, .ok g => .ok [("sky", s), ("horizon", h), ("ground", g)]
    | .error e, _, _ => .error e
    | _, .error e, _ => .error e
    | _, _, .error e => .error e

/-! ### Conversion and fitting -/

/-- `_get_model` succeeds for these names, pvlib/iam.py:967-977. -/
def fitModels : List String := ["ashrae", "martin_ruiz", "physical"]

/-- `_IAM_MODEL_PARAMS`, pvlib/iam.py:21-27 (the models reachable from `_check_params`). -/
def modelParams (model : String) : List String :=
  if model = "ashrae" then ["b"] else if model = "physical" then ["n", "K", "L"]
  else if model = "martin_ruiz" then ["a_r"] else []

/-- `_check_params`, pvlib/iam.py:980-987: the key set must be exactly the expected one. -/
def checkParams (model : String) (keys : List String) : Except PyErr Unit :=
  if ∀ k, k ∈ keys ↔ k ∈ modelParams model then .ok () else .error .valueError

/-- `_sin_weight`, pvlib/iam.py:990-991. -/
def sinWeight (aoi : Fl) : Fl := 1 - sind aoi

/-- `np.nan_to_num` (infinities go to the largest finite float, kept abstract as `huge`), pvlib/iam.py:1008. -/
def nanToNum (huge : ℝ) : Fl → Fl
  | nan => fin 0
  | pinf => fin huge
  | ninf => fin (-huge)
  | fin x => fin x

/-- `_residual`, pvlib/iam.py:994-1009, over samples `(aoi, source_iam)`; `target` has its parameters applied. -/
def residual (huge : ℝ) (samples : List (Fl × Fl)) (target : Fl → Fl) (weight : Fl → Fl) : Fl :=
  Fl.sum (samples.map fun s =>
    Fl.abs (s.2 - nanToNum huge (target s.1)) * (weight s.1 * npwhere (0 ≤ s.1 ∧ s.1 ≤ 90) 1 0))

/-- `_get_ashrae_intercept`, pvlib/iam.py:1012-1014. -/
def ashraeIntercept (b : Fl) : Fl := acosd (b / (1 + b))

/-- The search set-up: bounds of each optimised variable and the starting guess. (Used for pvlib/iam.py:1017-1040.) -/
structure Setup where
  (bounds : List (Fl × Fl))
  (guess : List Fl)

/-- `_ashrae_to_physical` set-up, pvlib/iam.py:1017-1040; variables `L, n`. -/
def ashraeToPhysical (fix_n : Bool) (b : Fl) : Setup :=
  if fix_n then
    let n := sind (ashraeIntercept b)
    ⟨[(fin 1e-6, fin 0.08), (n, n)], [fin 0.002, n]⟩
  else ⟨[(fin 1e-6, fin 0.08), (fin 0.8, fin 2)], [fin 0.002, fin 1]⟩

/-- `_martin_ruiz_to_physical` set-up, pvlib/iam.py:1049-1060; variables `L, n`, reversed for `a_r > 0.22`. -/
def martinRuizToPhysical (a_r : Fl) : Setup :=
  let bounds := [(fin 1e-6, fin 0.08), (fin 1.05, fin 2)]
  let guess := [fin 0.002, fin 1.1]
  if fin 0.22 < a_r then ⟨bounds.reverse, guess.reverse⟩ else ⟨bounds, guess⟩

/-- The parameters `residual_function` evaluates `physical` at, as `(n, L)` (always with `K = 4`):
pvlib/iam.py:1042-1044 (ashrae source: always `L, n`) and 1064-1071 (martin_ruiz source: the smaller is `L`). -/
def physicalTrial (source : String) (x : Fl × Fl) : Fl × Fl :=
  if source = "martin_ruiz" then (if x.1 < x.2 then (x.2, x.1) else (x.1, x.2)) else (x.2, x.1)

/-- `_process_return`, pvlib/iam.py:1100-1114: the named parameters, from the optimiser's `x`. -/
def processReturn (target : String) (x : List Fl) : Except PyErr (List (String × Fl)) :=
  if target = "ashrae" then
    match x with
    | [b] => .ok [("b", b)]
    | _ => .error .valueError
  else if target = "martin_ruiz" then
    match x with
    | [a] => .ok [("a_r", a)]
    | _ => .error .valueError
  else if target = "physical" then
    match x with
    | [L, n] => if n < L then .ok [("n", L), ("K", 4), ("L", n)] else .ok [("n", n), ("K", 4), ("L", L)]
    | _ => .error .valueError
  else .error .unboundLocal

/-- The optimiser (`scipy.optimize.minimize`, Powell): `none` means `success` is false. (Used for pvlib/iam.py:1076-1097.) -/
abbrev Optimizer := (List Fl → Fl) → Setup → Option (List Fl)

/-- `_minimize`, pvlib/iam.py:1076-1097. -/
def minimize (opt : Optimizer) (f : List Fl → Fl) (s : Setup) : Except PyErr (List Fl) :=
  match opt f s with
  | none => .error .runtimeError
  | some x => .ok x

/-- The model function named `model` at positional parameters `p` (as `target(aoi, *target_params)`). (Used for pvlib/iam.py:1042-1044.) -/
def modelAt (model : String) (p : List Fl) (aoi : Fl) : Except PyErr Fl :=
  if model = "ashrae" then
    match p with
    | [b] => .ok (ashrae aoi b)
    | _ => .error .typeError
  else if model = "martin_ruiz" then
    match p with
    | [a] => martinRuiz aoi a
    | _ => .error .typeError
  else
    match p with
    | [n, K, L] => .ok (physical aoi n K L)
    | _ => .error .typeError

/-- A residual whose target raises is not evaluated further; the model gives NaN there (the bounds exclude it). (Used for pvlib/iam.py:1042-1044.) -/
def orNan : Except PyErr Fl → Fl
  | .ok x => x
  | .error _ => nan

/-- `params[k]` for a parameter mapping. (Used for pvlib/iam.py:1214-1229.) -/
def getParam (params : List (String × Fl)) (k : String) : Fl := ((params.find? fun p => p.1 == k).map Prod.snd).getD nan

/-- The source parameters in positional order. (Used for pvlib/iam.py:1203-1234.) -/
def sourceArgs (model : String) (params : List (String × Fl)) : List Fl := (modelParams model).map (getParam params)

/-- The 91 angles `np.linspace(0, 90, 91)`, pvlib/iam.py:1206. -/
def convertAoi : List Fl := (List.range 91).map fun (i : ℕ) => fin (i : ℝ)

/-- The residual function `convert` hands to the optimiser, over the sampled source curve:
pvlib/iam.py:1042-1044, 1064-1071 (target `physical`) and 1224-1227 (other targets). -/
def convertResidual (huge : ℝ) (source target : String) (samples : List (Fl × Fl)) (weight : Fl → Fl)
    (x : List Fl) : Fl :=
  if target = "physical" then
    match x with
    | [u, v] =>
      residual huge samples (fun a => physical a (physicalTrial source (u, v)).1 4 (physicalTrial source (u, v)).2) weight
    | _ => nan
  else residual huge samples (fun a => orNan (modelAt target x a)) weight

/-- The bounds and starting guess `convert` hands to the optimiser, pvlib/iam.py:1214-1229; `physical` to `physical`
assigns no residual function and no guess. -/
def convertSetup (source : String) (params : List (String × Fl)) (target : String) (fix_n : Bool) :
    Except PyErr Setup :=
  if target = "physical" then
    if source = "ashrae" then .ok (ashraeToPhysical fix_n (getParam params "b"))
    else if source = "martin_ruiz" then .ok (martinRuizToPhysical (getParam params "a_r"))
    else .error .unboundLocal
  else .ok ⟨[(fin 1e-04, 1)], [fin 1e-03]⟩

/-- `convert`, pvlib/iam.py:1203-1234. -/
def convert (huge : ℝ) (opt : Optimizer) (source : String) (params : List (String × Fl)) (target : String)
    (weight : Fl → Fl := sinWeight) (fix_n : Bool := true) : Except PyErr (List (String × Fl)) :=
  if source ∉ fitModels then .error .notImplementedError
  else if target ∉ fitModels then .error .notImplementedError
  else match checkParams source (params.map Prod.fst) with
  | .error e => .error e
  | .ok _ =>
    match convertAoi.mapM (modelAt source (sourceArgs source params)) with
    | .error e => .error e
    | .ok source_iam =>
      match convertSetup source params target fix_n with
      | .error e => .error e
      | .ok s =>
        match minimize opt (convertResidual huge source target (convertAoi.zip source_iam) weight) s with
        | .error e => .error e
        | .ok x => processReturn target x

/-- The residual function `fit` hands to the optimiser, pvlib/iam.py:1301-1316. -/
def fitResidual (huge : ℝ) (samples : List (Fl × Fl)) (model : String) (weight : Fl → Fl) (x : List Fl) : Fl :=
  if model = "physical" then
    match x with
    | [L, n] => residual huge samples (fun a => physical a n 4 L) weight
    | _ => nan
  else residual huge samples (fun a => orNan (modelAt model x a)) weight

/-- The bounds and starting guess of `fit`, pvlib/iam.py:1304-1318. -/
def fitSetup (model : String) : Setup :=
  if model = "physical" then ⟨[(0, fin 0.08), (1, 2)], [fin 0.002, fin (1 + 1e-8)]⟩
  else ⟨[(fin 1e-08, 1)], [fin 0.05]⟩

/-- `fit`, pvlib/iam.py:1301-1323, over the measured samples `(aoi, iam)`. -/
def fit (huge : ℝ) (opt : Optimizer) (samples : List (Fl × Fl)) (model : String) (weight : Fl → Fl := sinWeight) :
    Except PyErr (List (String × Fl)) :=
  if model ∉ fitModels then .error .notImplementedError
  else
    match minimize opt (fitResidual huge samples model weight) (fitSetup model) with
    | .error e => .error e
    | .ok x => processReturn model x

end Pvlib.Iam
end
