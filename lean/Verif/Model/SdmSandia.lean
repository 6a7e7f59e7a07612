import Verif.Model.Sde
import Verif.Model.PvFunctions

/-! # Model of `pvlib/ivtools/sdm/_fit_desoto_pvsyst_sandia.py`, `fit_desoto_sandia` and `fit_pvsyst_sandia`

The IV curves are numbered `0 … n-1`; an array with one entry per curve is a `Series`, a boolean mask a predicate on
curve numbers.  Third-party numerics: `Numerics` (Lambert W, minimiser) and `LinLib` (`np.linalg.lstsq`), as in
`Model/PvFunctions.lean` and `Model/Sde.lean`; `FitLib` for the robust regression of statsmodels and the bounded least
squares of scipy.  Line numbers without a file are those of `_fit_desoto_pvsyst_sandia.py`. -/

noncomputable section
open scoped Classical
open Real
namespace Pvlib.Sdm
open Fl Pvlib.IvTools Pvlib.SingleDiode Pvlib.PvFunctions

/-- `arr[u]` as a list: the entries of the selected curves, in order. (Used for pvlib/ivtools/sdm/_fit_desoto_pvsyst_sandia.py:18-69.) -/
def sel (n : ℕ) (u : ℕ → Prop) : List ℕ := (List.range n).filter fun k => u k

/-- `arr[u] = new` (the other entries keep their value). (Used for pvlib/ivtools/sdm/_fit_desoto_pvsyst_sandia.py:18-69.) -/
def put (u : ℕ → Prop) (new old : Series) : Series := fun k => if u k then new k else old k

/-- `np.max` of a non-empty array (NaN if one entry is NaN). (Used for pvlib/ivtools/sdm/_fit_desoto_pvsyst_sandia.py:291.) -/
def npMax : List Fl → Fl
  | [] => nan
  | x :: xs => xs.foldl maximum x

/-- Python's `max` over a non-empty sequence: the first element that no later one exceeds. (Used for pvlib/ivtools/sdm/_fit_desoto_pvsyst_sandia.py:367-374.) -/
def pyMax : List Fl → Fl
  | [] => nan
  | x :: xs => xs.foldl (fun (m y : Fl) => if m < y then y else m) x

/-! ### `_calc_theta_phi_exact` -/

/-- One pass of the loop at pvlib/ivtools/sdm/_fit_desoto_pvsyst_sandia.py:549-551 (and 578-580).  `x = logargw` binds both names to one array and `x *= …` writes
into it, so the `logargw` read by a pass is the `x` of the previous pass. -/
def aliasedStep (x : Fl) : Fl := x * ((1 - Fl.log x + x) / (1 + x))

/-- The three passes of pvlib/ivtools/sdm/_fit_desoto_pvsyst_sandia.py:549-552 (578-581). -/
def aliasedNewton (logargw : Fl) : Fl := aliasedStep (aliasedStep (aliasedStep logargw))

/-- `argw` for `phi`, pvlib/ivtools/sdm/_fit_desoto_pvsyst_sandia.py:533-536. -/
def phiArg (imp iph io rsh a : Fl) : Fl :=
  npwhere (eqv a 0) nan (rsh * io / a * Fl.exp (rsh * (iph + io - imp) / a))

/-- `phi`, pvlib/ivtools/sdm/_fit_desoto_pvsyst_sandia.py:530-553.  Exact arithmetic does not overflow, so `np.isinf(argw)` is the parameter `num.ovf`. -/
def calcPhi (num : Numerics) (imp iph io rsh a : Fl) : Fl :=
  let argw := phiArg imp iph io rsh a
  if num.ovf argw then aliasedNewton (Fl.log rsh + Fl.log io - Fl.log a + rsh * (iph + io - imp) / a)
  else npwhere (0 < argw) (num.W argw) nan

/-- `argw` for `theta`, pvlib/ivtools/sdm/_fit_desoto_pvsyst_sandia.py:558-562. -/
def thetaArg (vmp iph io rs rsh a : Fl) : Fl :=
  npwhere (eqv a 0) nan (rsh / (rsh + rs) * rs * io / a * Fl.exp (rsh / (rsh + rs) * (rs * (iph + io) + vmp) / a))

/-- `theta`, pvlib/ivtools/sdm/_fit_desoto_pvsyst_sandia.py:555-582. -/
def calcTheta (num : Numerics) (vmp iph io rs rsh a : Fl) : Fl :=
  let argw := thetaArg vmp iph io rs rsh a
  if num.ovf argw then
    aliasedNewton (Fl.log rsh - Fl.log (rsh + rs) + Fl.log rs + Fl.log io - Fl.log a
      + (rsh / (rsh + rs)) * (rs * (iph + io) + vmp) / a)
  else npwhere (0 < argw) (num.W argw) nan

/-! ### The single steps -/

/-- One pass of `_update_rsh_fixed_pt`, pvlib/ivtools/sdm/_fit_desoto_pvsyst_sandia.py:467-471. -/
def rshStep (num : Numerics) (vmp imp iph io a x1 : Fl) : Fl :=
  let z := calcPhi num imp iph io x1 a
  (1 + z) / z * ((iph + io) * x1 / imp - a * z / imp - 2 * vmp / imp)

/-- `_update_rsh_fixed_pt`, pvlib/ivtools/sdm/_fit_desoto_pvsyst_sandia.py:428-473: 500 passes. -/
def updateRsh (num : Numerics) (vmp imp iph io rsh a : Fl) : Fl := (rshStep num vmp imp iph io a)^[500] rsh

/-- The series resistance that meets the maximum power point, pvlib/ivtools/sdm/_fit_desoto_pvsyst_sandia.py:91-94. -/
def rsFormula (num : Numerics) (vmp imp iph io rsh a : Fl) : Fl :=
  (iph + io - imp) * rsh / imp - a * calcPhi num imp iph io rsh a / imp - vmp / imp

/-- The photocurrent that meets the short circuit current, pvlib/ivtools/sdm/_fit_desoto_pvsyst_sandia.py:69 and 103. -/
def iphFormula (isc io rs rsh a : Fl) : Fl := isc + io * expm1 (rs * isc / a) + isc * rs / rsh

/-- One pass of `_update_io` for one curve, pvlib/ivtools/sdm/_fit_desoto_pvsyst_sandia.py:282-289. -/
def ioStep (num : Numerics) (voc iph rs rsh a tio : Fl) : Fl :=
  let pvoc := lambertwVFromI num.W num.LW num.ovf 0 iph tio rs rsh a
  let dvoc := pvoc - voc
  tio * (1 + 2 * dvoc / (2 * a - dvoc))

/-- `maxerr` of pvlib/ivtools/sdm/_fit_desoto_pvsyst_sandia.py:291: over all the curves of the call. -/
def ioErr (idx : List ℕ) (new old : Series) : Fl := npMax (idx.map fun k => Fl.abs (new k - old k) / old k) * 100

/-- The arrays that do not change while the parameters are updated. (Used for pvlib/ivtools/sdm/_fit_desoto_pvsyst_sandia.py:280-294.) -/
structure Curves where
  (n : ℕ)
  (voc isc vmp imp ee nnsvth : Series)

/-- The loop of `_update_io`, pvlib/ivtools/sdm/_fit_desoto_pvsyst_sandia.py:280-294, with at most `fuel` passes left. -/
def updateIoLoop (num : Numerics) (c : Curves) (iph rs rsh : Series) (idx : List ℕ) : ℕ → Series → Series
  | 0, tio => tio
  | fuel + 1, tio =>
      let new : Series := fun k => ioStep num (c.voc k) (iph k) (rs k) (rsh k) (c.nnsvth k) (tio k)
      if fin 1e-6 < ioErr idx new tio then updateIoLoop num c iph rs rsh idx fuel new else new

/-- `_update_io` on the curves `idx`, pvlib/ivtools/sdm/_fit_desoto_pvsyst_sandia.py:237-296: `niter = 10`, `k` from 1, so at most nine passes; `np.max` of an empty
array (no curve selected) raises `ValueError`. -/
def updateIo (num : Numerics) (c : Curves) (iph io rs rsh : Series) (idx : List ℕ) : Except PyErr Series :=
  if idx = [] then .error .valueError else .ok (updateIoLoop num c iph rs rsh idx 9 io)

/-- `eff`, pvlib/ivtools/sdm/_fit_desoto_pvsyst_sandia.py:316-317: least squares of `isc` against `ee / 1000` (and a column of zeros). -/
def effSlope (lib : Sde.LinLib) (c : Curves) : Fl :=
  (lib.lstsq ((List.range c.n).map fun k => ([c.ee k / 1000, 0], c.isc k))).getD 0 nan

/-- `~badiph` for one curve, pvlib/ivtools/sdm/_fit_desoto_pvsyst_sandia.py:318-321. -/
def linearIsc (lib : Sde.LinLib) (c : Curves) (k : ℕ) : Prop :=
  ¬ (fin 0.05 < Fl.abs (effSlope lib c * c.ee k / 1000 - c.isc k) / c.isc k)

/-- `goodr` for one curve, pvlib/ivtools/sdm/_fit_desoto_pvsyst_sandia.py:305-314 (`np.isreal` of a float is true). -/
def goodR (io rs rsh : Fl) : Prop :=
  ¬ (rsh < 0 ∨ isnan rsh) ∧ ¬ rs < 0 ∧ ¬ (rsh < rs ∨ isnan rs) ∧ ¬ (io ≤ 0 ∨ isnan io)

/-- `_filter_params`, pvlib/ivtools/sdm/_fit_desoto_pvsyst_sandia.py:299-324. -/
def filterParams (lib : Sde.LinLib) (c : Curves) (io rs rsh : Series) (k : ℕ) : Prop :=
  goodR (io k) (rs k) (rsh k) ∧ linearIsc lib c k

/-! ### Initial values -/

/-- `tmp` of pvlib/ivtools/sdm/_fit_desoto_pvsyst_sandia.py:37 for the rectified curve. -/
def tmp37 (pts : List (Fl × Fl)) (rsh : Fl) (k : ℕ) : Fl :=
  let volt : Series := fun j => (pts.map Prod.fst).getD j nan
  let curr : Series := fun j => (pts.map Prod.snd).getD j nan
  (-rsh) * (numdiff pts.length volt curr k).1 - 1

/-- `vtrs[vtrs > 0]` of pvlib/ivtools/sdm/_fit_desoto_pvsyst_sandia.py:42-45. -/
def vtrsPos (pts : List (Fl × Fl)) (voc isc rsh a io : Fl) : List Fl :=
  let volt : Series := fun j => (pts.map Prod.fst).getD j nan
  let v := (List.range pts.length).filter fun k => fin 0.5 * voc < volt k ∧ volt k < fin 0.9 * voc ∧
    ¬ isnan (tmp37 pts rsh k) ∧ 0 < tmp37 pts rsh k
  let vtrs := v.map fun k => a / isc * (Fl.log (tmp37 pts rsh k * a / (rsh * io)) - volt k / a)
  vtrs.filter fun x => 0 < x

/-- `np.any(v)` of pvlib/ivtools/sdm/_fit_desoto_pvsyst_sandia.py:41. -/
def anyV (pts : List (Fl × Fl)) (voc rsh : Fl) : Prop :=
  let volt : Series := fun j => (pts.map Prod.fst).getD j nan
  ∃ k < pts.length, fin 0.5 * voc < volt k ∧ volt k < fin 0.9 * voc ∧ ¬ isnan (tmp37 pts rsh k) ∧ 0 < tmp37 pts rsh k

/-- The initial `(io, rs)` of one curve, pvlib/ivtools/sdm/_fit_desoto_pvsyst_sandia.py:24-57 (`pts` is the measured curve; the `iph` of line 51 is overwritten by
line 69 before it is read, except by the `_update_io` of line 65, see `initPhotocurrent`). -/
def initCurve (pts : List (Fl × Fl)) (voc isc rsh a : Fl) : Fl × Fl :=
  if 0 < rsh then
    let r := rectifyIvCurve pts none
    let io := (isc - voc / rsh) * Fl.exp (-voc / a)
    let rs := if anyV r voc rsh then groupMean (vtrsPos r voc isc rsh a io) else 0
    (io, rs)
  else (nan, nan)

/-- The `iph[j]` of pvlib/ivtools/sdm/_fit_desoto_pvsyst_sandia.py:51-52 and 57. -/
def initPhotocurrent (isc rsh a io rs : Fl) : Fl :=
  if 0 < rsh then isc + io * expm1 (isc / a) + isc * rs / rsh else nan

/-- The arrays `iph, io, rs, rsh` and the mask `u`. (Used for pvlib/ivtools/sdm/_fit_desoto_pvsyst_sandia.py:18-69.) -/
structure State where
  (iph io rs rsh : Series)
  (u : ℕ → Prop)

/-- `arr[j] = x`. (Used for pvlib/ivtools/sdm/_fit_desoto_pvsyst_sandia.py:18-69.) -/
def setAt (s : Series) (j : ℕ) (x : Fl) : Series := fun k => if k = j then x else s k

/-- The loop of `_initial_iv_params`, pvlib/ivtools/sdm/_fit_desoto_pvsyst_sandia.py:18-69, after `j` curves. The filter, the refinement of `io` and the
photocurrent are inside the loop and act on all the curves, also those still at their placeholder value 1. -/
def initLoop (num : Numerics) (lib : Sde.LinLib) (c : Curves) (pts : ℕ → List (Fl × Fl)) (rsh : Series) :
    ℕ → Except PyErr State
  | 0 => .ok ⟨fun _ => 1, fun _ => 1, fun _ => 1, rsh, fun _ => False⟩
  | j + 1 =>
    match initLoop num lib c pts rsh j with
    | .error e => .error e
    | .ok s =>
      let p := initCurve (pts j) (c.voc j) (c.isc j) (rsh j) (c.nnsvth j)
      let io := setAt s.io j p.1
      let rs := setAt s.rs j p.2
      let iph := setAt s.iph j (initPhotocurrent (c.isc j) (rsh j) (c.nnsvth j) p.1 p.2)
      let u := filterParams lib c io rs rsh
      match updateIo num c iph io rs rsh (sel c.n u) with
      | .error e => .error e
      | .ok new =>
        let io := put u new io
        .ok ⟨fun k => iphFormula (c.isc k) (io k) (rs k) (rsh k) (c.nnsvth k), io, rs, rsh, u⟩

/-- `_initial_iv_params`, pvlib/ivtools/sdm/_fit_desoto_pvsyst_sandia.py:14-71; with no curve at all `u` is never bound. -/
def initialIvParams (num : Numerics) (lib : Sde.LinLib) (c : Curves) (pts : ℕ → List (Fl × Fl)) (rsh : Series) :
    Except PyErr State :=
  if c.n = 0 then .error .unboundLocal else initLoop num lib c pts rsh c.n

/-! ### Convergence -/

/-- `np.mean` over the selected curves. (Used for pvlib/ivtools/sdm/_fit_desoto_pvsyst_sandia.py:367-374.) -/
def meanOf (xs : List Fl) : Fl := Fl.sum xs / fin xs.length

/-- `np.std(…, ddof=1)`. (Used for pvlib/ivtools/sdm/_fit_desoto_pvsyst_sandia.py:367-374.) -/
def stdOf (xs : List Fl) : Fl := Fl.sqrt (Fl.sum (xs.map fun x => (x - meanOf xs) ^ 2) / fin ((xs.length : ℝ) - 1))

/-- The statistics of one error array that enter the convergence test, pvlib/ivtools/sdm/_fit_desoto_pvsyst_sandia.py:363-392. -/
structure Stat where
  (absmax mean std : Fl)

/-- pvlib/ivtools/sdm/_fit_desoto_pvsyst_sandia.py:367-374 (and 376-392). -/
def stat (xs : List Fl) : Stat := ⟨pyMax (xs.map Fl.abs), meanOf xs, stdOf xs⟩

/-- `100 * (x - ref) / ref` as written at pvlib/ivtools/sdm/_fit_desoto_pvsyst_sandia.py:363-365. -/
def pctErr (x ref : Fl) : Fl := (x - ref) / ref * 100

/-- The three error statistics of `_check_converge`, pvlib/ivtools/sdm/_fit_desoto_pvsyst_sandia.py:361-392: current, voltage, power. -/
structure Stats where
  (imp vmp pmp : Stat)

/-- `|x / prev - 1|`, pvlib/ivtools/sdm/_fit_desoto_pvsyst_sandia.py:395-412. -/
def change (x prev : Fl) : Fl := Fl.abs (x / prev - 1)

/-- The nine `…change` entries of `_check_converge`, pvlib/ivtools/sdm/_fit_desoto_pvsyst_sandia.py:394-424: infinite in the first pass (`prevparams['state']` is 0).
-/
def changes (prev : Option Stats) (s : Stats) : List Fl :=
  match prev with
  | none => List.replicate 9 pinf
  | some p => [change s.imp.std p.imp.std, change s.vmp.std p.vmp.std, change s.pmp.std p.pmp.std,
      change s.imp.mean p.imp.mean, change s.vmp.mean p.vmp.mean, change s.pmp.mean p.pmp.mean,
      change s.imp.absmax p.imp.absmax, change s.vmp.absmax p.vmp.absmax, change s.pmp.absmax p.pmp.absmax]

/-- `_check_converge`, pvlib/ivtools/sdm/_fit_desoto_pvsyst_sandia.py:327-392, for the selected curves. -/
def checkConverge (c : Curves) (result : ℕ → SevenPoints) (idx : List ℕ) : Stats :=
  ⟨stat (idx.map fun k => pctErr (result k).i_mp (c.imp k)), stat (idx.map fun k => pctErr (result k).v_mp (c.vmp k)),
   stat (idx.map fun k => pctErr (result k).p_mp (c.imp k * c.vmp k))⟩

/-! ### The refinement loop -/

/-- The points computed at pvlib/ivtools/sdm/_fit_desoto_pvsyst_sandia.py:109 (`method='lambertw'` does not raise). -/
def points (num : Numerics) (c : Curves) (s : State) (k : ℕ) : SevenPoints :=
  match singlediode num ⟨s.iph k, s.io k, s.rs k, s.rsh k, c.nnsvth k⟩ with
  | .ok r => r
  | .error _ => ⟨nan, nan, nan, nan, nan, nan, nan⟩

/-- One pass of the loop of `_update_iv_params`, pvlib/ivtools/sdm/_fit_desoto_pvsyst_sandia.py:86-106. -/
def refineStep (num : Numerics) (lib : Sde.LinLib) (c : Curves) (s : State) : Except PyErr State :=
  let rsh := put s.u (fun k => updateRsh num (c.vmp k) (c.imp k) (s.iph k) (s.io k) (s.rsh k) (c.nnsvth k)) s.rsh
  let rs := put s.u (fun k => rsFormula num (c.vmp k) (c.imp k) (s.iph k) (s.io k) (rsh k) (c.nnsvth k)) s.rs
  let u := filterParams lib c s.io rs rsh
  match updateIo num c s.iph s.io rs rsh (sel c.n u) with
  | .error e => .error e
  | .ok new =>
    let io := put u new s.io
    let iph : Series := fun k => iphFormula (c.isc k) (io k) (rs k) (rsh k) (c.nnsvth k)
    .ok ⟨iph, io, rs, rsh, filterParams lib c io rs rsh⟩

/-- The loop of `_update_iv_params`, pvlib/ivtools/sdm/_fit_desoto_pvsyst_sandia.py:85-128, with at most `fuel` passes left; `prev` is `prevconvergeparams` (`none`
for the initial state).  Python's `max` of an empty sequence (no curve selected, line 367) raises `ValueError`. -/
def updateLoop (num : Numerics) (lib : Sde.LinLib) (c : Curves) (eps1 : Fl) : ℕ → Option Stats → State → Except PyErr State
  | 0, _, s => .ok s
  | fuel + 1, prev, s =>
    match refineStep num lib c s with
    | .error e => .error e
    | .ok s' =>
      if sel c.n s'.u = [] then .error .valueError
      else
        let st := checkConverge c (points num c s') (sel c.n s'.u)
        if ∃ x ∈ changes prev st, eps1 ≤ x then updateLoop num lib c eps1 fuel (some st) s' else .ok s'

/-- `_update_iv_params`, pvlib/ivtools/sdm/_fit_desoto_pvsyst_sandia.py:74-130, for an integer `maxiter`. -/
def updateIvParams (num : Numerics) (lib : Sde.LinLib) (c : Curves) (s : State) (maxiter : ℕ) (eps1 : Fl) :
    Except PyErr State :=
  updateLoop num lib c eps1 maxiter none s

/-! ### The model parameters -/

/-- statsmodels and scipy fits.  `rlm pts` are the parameters of `sm.RLM(y, sm.add_constant(x)).fit()` for the points
`(x, y)` (pvlib/ivtools/sdm/_fit_desoto_pvsyst_sandia.py:197-198, 205-207): `[const, slope]`, or a single entry when `x` is constant (`add_constant` then adds
nothing).  `boundedLsq f x0` is `optimize.least_squares(f, x0, bounds=([1, 1], [1e7, 1e6])).x` (lines 177-179), which raises
`ValueError` when `x0` is out of bounds. -/
structure FitLib where
  rlm : List (Fl × Fl) → List Fl
  boundedLsq : (Fl × Fl → List Fl) → Fl × Fl → Except PyErr (Fl × Fl)

/-- `const`, pvlib/ivtools/sdm/desoto.py:13. -/
structure Const where
  (E0 T0 k q : Fl)

/-- The default `CONSTANTS`, pvlib/ivtools/sdm/desoto.py:13. -/
def constants : Const := ⟨1000, 25, fin kB, fin qe⟩

/-- The entries of `params` computed by `_extract_sdm_params`. (Used for pvlib/ivtools/sdm/_fit_desoto_pvsyst_sandia.py:133-234.) -/
structure SdmParams where
  (I_L_ref I_o_ref EgRef R_sh_ref R_s : Fl)

/-- pvlib/ivtools/sdm/_fit_desoto_pvsyst_sandia.py:203-209: `(I_o_ref, EgRef)`.  `beta[1]` of a one-parameter fit raises `IndexError`. -/
def fitIo (fl : FitLib) (c : Curves) (K : Const) (tc : Series) (x_for_io : Series) (s : State) : Except PyErr (Fl × Fl) :=
  let tck : Series := fun k => tc k + fin 273.15
  let tok := K.T0 + fin 273.15
  match fl.rlm ((sel c.n s.u).map fun k => (x_for_io k, Fl.log (s.io k) - 3 * Fl.log (tck k / tok))) with
  | b0 :: b1 :: _ => .ok (Fl.exp b0, b1)
  | _ => .error .indexError

/-- `I_L_ref`, pvlib/ivtools/sdm/_fit_desoto_pvsyst_sandia.py:211-216. -/
def fitIL (c : Curves) (K : Const) (tc : Series) (alpha_sc : Fl) (s : State) : Fl :=
  meanOf (((sel c.n s.u).map fun k => s.iph k * (K.E0 / c.ee k) - alpha_sc * (tc k - K.T0)).filter fun y => ¬ isnan y)

/-- `R_s`, pvlib/ivtools/sdm/_fit_desoto_pvsyst_sandia.py:218-220: the third argument of `np.logical_and` is its output array, so the mask `~nans` does not enter. -/
def fitRs (c : Curves) (s : State) : Fl := meanOf ((sel c.n fun k => s.u k ∧ 400 < c.ee k).map s.rs)

/-- `x_for_io` for the De Soto model, pvlib/ivtools/sdm/_fit_desoto_pvsyst_sandia.py:189-191. -/
def xDesoto (K : Const) (tc : Series) (k : ℕ) : Fl :=
  let tck := tc k + fin 273.15
  let tok := K.T0 + fin 273.15
  K.q / K.k * (1 / tok - 1 / tck + fin (-0.0002677) * (tc k - K.T0) / tck)

/-- `_extract_sdm_params(…, model='desoto')`, pvlib/ivtools/sdm/_fit_desoto_pvsyst_sandia.py:133-234. -/
def extractDesoto (fl : FitLib) (c : Curves) (K : Const) (tc : Series) (alpha_sc : Fl) (s : State) : Except PyErr SdmParams :=
  match fl.rlm ((sel c.n fun k => s.u k ∧ 400 < c.ee k).map fun k => (K.E0 / c.ee k, s.rsh k)) with
  | _ :: R_sh_ref :: _ =>
    match fitIo fl c K tc (xDesoto K tc) s with
    | .error e => .error e
    | .ok (io, eg) => .ok ⟨fitIL c K tc alpha_sc s, io, eg, R_sh_ref, fitRs c s⟩
  | _ => .error .indexError

/-- `x_for_io` for the PVsyst model, pvlib/ivtools/sdm/_fit_desoto_pvsyst_sandia.py:150; `g` is the diode factor of each curve. -/
def xPvsyst (K : Const) (tc g : Series) (k : ℕ) : Fl :=
  let tck := tc k + fin 273.15
  let tok := K.T0 + fin 273.15
  K.q / K.k * (1 / tok - 1 / tck) / g k

/-- The starting point of the shunt fit, pvlib/ivtools/sdm/_fit_desoto_pvsyst_sandia.py:154-163. -/
def rshGuess (c : Curves) (s : State) : Fl × Fl :=
  let all := List.range c.n
  (if ∃ k ∈ all, c.ee k < 400 then meanOf ((all.filter fun k => ¬ isnan (s.rsh k) ∧ c.ee k < 400).map s.rsh)
    else npMax (all.map s.rsh),
   if ∃ k ∈ all, 400 < c.ee k then meanOf ((all.filter fun k => ¬ isnan (s.rsh k) ∧ 400 < c.ee k).map s.rsh)
    else - npMax ((all.map s.rsh).map fun x => -x))

/-- `fun_rsh`, pvlib/ivtools/sdm/_fit_desoto_pvsyst_sandia.py:169-174 (`x = (R_sh_0, R_sh_ref)`); `np.log10` as a quotient of natural logarithms. -/
def funRsh (c : Curves) (K : Const) (s : State) (x : Fl × Fl) : List Fl :=
  (sel c.n s.u).map fun k => Fl.log (pvsystRsh (c.ee k) x.2 x.1 (fin 5.5) K.E0) / Fl.log 10 - Fl.log (s.rsh k) / Fl.log 10

/-- `_extract_sdm_params(…, model='pvsyst')`, pvlib/ivtools/sdm/_fit_desoto_pvsyst_sandia.py:133-234; also returns `R_sh_0` (`R_sh_exp` is 5.5). -/
def extractPvsyst (fl : FitLib) (c : Curves) (K : Const) (tc g : Series) (alpha_sc : Fl) (s : State) :
    Except PyErr (SdmParams × Fl) :=
  match fl.boundedLsq (funRsh c K s) (rshGuess c s) with
  | .error e => .error e
  | .ok (R_sh_0, R_sh_ref) =>
    match fitIo fl c K tc (xPvsyst K tc g) s with
    | .error e => .error e
    | .ok (io, eg) => .ok (⟨fitIL c K tc alpha_sc s, io, eg, R_sh_ref, fitRs c s⟩, R_sh_0)

/-! ### The public functions -/

/-- What is measured: for each curve the points, `ee`, `tc`, `i_sc`, `v_oc`, `i_mp`, `v_mp`. (Used for pvlib/ivtools/sdm/desoto.py:348-354.) -/
structure IvCurves where
  (n : ℕ)
  (pts : ℕ → List (Fl × Fl))
  (ee tc i_sc v_oc i_mp v_mp : Series)

/-- The initial shunt resistances, pvlib/ivtools/sdm/desoto.py:348-354 and pvsyst.py:162-168: the first failing curve
raises. -/
def initRsh (lib : Sde.LinLib) (iv : IvCurves) (vth : Series) (cells_in_series : Fl) : ℕ → Except PyErr (List Fl)
  | 0 => .ok []
  | j + 1 =>
    match initRsh lib iv vth cells_in_series j with
    | .error e => .error e
    | .ok rsh =>
      let r := rectifyIvCurve (iv.pts j) none
      match Sde.fitSandiaCocontent lib r.length r.length (fun k => (r.map Prod.fst).getD k nan)
          (fun k => (r.map Prod.snd).getD k nan) (vth j * cells_in_series) with
      | .error e => .error e
      | .ok p => .ok (rsh ++ [p.rsh])

/-- `vth`, pvlib/ivtools/sdm/desoto.py:340. -/
def vthOf (K : Const) (iv : IvCurves) : Series := fun k => K.k / K.q * (iv.tc k + fin 273.15)

/-- `_fit_desoto_sandia_diode`, pvlib/ivtools/sdm/desoto.py:388-401. -/
def desotoDiode (fl : FitLib) (K : Const) (iv : IvCurves) (cells_in_series beta_voc : Fl) : Except PyErr Fl :=
  match fl.rlm ((List.range iv.n).map fun k => (cells_in_series * vthOf K iv k * Fl.log (iv.ee k / K.E0),
      iv.v_oc k - beta_voc * (iv.tc k - K.T0))) with
  | _ :: b1 :: _ => .ok b1
  | _ => .error .indexError

/-- The arrays used in the update with the given `nnsvth`. (Used for pvlib/ivtools/sdm/desoto.py:220-385.) -/
def curvesOf (iv : IvCurves) (nnsvth : Series) : Curves := ⟨iv.n, iv.v_oc, iv.i_sc, iv.v_mp, iv.i_mp, iv.ee, nnsvth⟩

/-- What `fit_desoto_sandia` returns. (Used for pvlib/ivtools/sdm/desoto.py:220-385.) -/
structure DesotoFit where
  (params : SdmParams)
  (a_ref cells_in_series : Fl)
  (state : State)

/-- `fit_desoto_sandia`, pvlib/ivtools/sdm/desoto.py:220-385 (`specs` are `cells_in_series`, `alpha_sc`, `beta_voc`). -/
def fitDesotoSandia (num : Numerics) (lib : Sde.LinLib) (fl : FitLib) (iv : IvCurves) (cells_in_series alpha_sc beta_voc : Fl)
    (K : Const) (maxiter : ℕ) (eps1 : Fl) : Except PyErr DesotoFit :=
  match initRsh lib iv (vthOf K iv) cells_in_series iv.n with
  | .error e => .error e
  | .ok rsh =>
    match desotoDiode fl K iv cells_in_series beta_voc with
    | .error e => .error e
    | .ok n0 =>
      if isnan n0 then .error .runtimeError
      else
        let c := curvesOf iv fun k => n0 * cells_in_series * vthOf K iv k
        match initialIvParams num lib c iv.pts (fun k => rsh.getD k nan) with
        | .error e => .error e
        | .ok s =>
          match updateIvParams num lib c s maxiter eps1 with
          | .error e => .error e
          | .ok s =>
            match extractDesoto fl c K iv.tc alpha_sc s with
            | .error e => .error e
            | .ok p => .ok ⟨p, n0 * cells_in_series * K.k / K.q * (K.T0 + fin 273.15), cells_in_series, s⟩

/-- `_fit_pvsyst_sandia_gamma`, pvlib/ivtools/sdm/pvsyst.py:205-221: the third argument of `np.logical_or` is its output
array, so `np.isnan(x2)` does not enter the mask. -/
def pvsystGammaFit (lib : Sde.LinLib) (K : Const) (iv : IvCurves) (rsh : Series) (cells_in_series : Fl) : Fl × Fl :=
  let t0 := K.T0 + fin 273.15
  let tck : Series := fun k => iv.tc k + fin 273.15
  let y : Series := fun k => Fl.log (iv.i_sc k - iv.v_oc k / rsh k) - 3 * Fl.log (tck k / t0)
  let x1 : Series := fun k => K.q / K.k * (1 / t0 - 1 / tck k)
  let x2 : Series := fun k => iv.v_oc k / (vthOf K iv k * cells_in_series)
  let idx := sel iv.n fun k => ¬ (isnan (y k) ∨ isnan (x1 k))
  let alpha := if idx = [] then [0, 0, 0, 0, 0] else lib.lstsq (idx.map fun k =>
    ([1, x1 k, -x1 k * (tck k - t0), x2 k, -x2 k * (tck k - t0)], y k))
  (1 / alpha.getD 3 nan, alpha.getD 4 nan / alpha.getD 3 nan ^ 2)

/-- What `fit_pvsyst_sandia` returns. (Used for pvlib/ivtools/sdm/pvsyst.py:24-202.) -/
structure PvsystFit where
  (params : SdmParams)
  (R_sh_0 gamma_ref mu_gamma cells_in_series : Fl)
  (state : State)

/-- `fit_pvsyst_sandia`, pvlib/ivtools/sdm/pvsyst.py:24-202. -/
def fitPvsystSandia (num : Numerics) (lib : Sde.LinLib) (fl : FitLib) (iv : IvCurves) (cells_in_series alpha_sc : Fl)
    (K : Const) (maxiter : ℕ) (eps1 : Fl) : Except PyErr PvsystFit :=
  match initRsh lib iv (vthOf K iv) cells_in_series iv.n with
  | .error e => .error e
  | .ok rsh =>
    let g := pvsystGammaFit lib K iv (fun k => rsh.getD k nan) cells_in_series
    if isnan g.1 ∨ isnan g.2 then .error .runtimeError
    else
      let gamma : Series := fun k => g.1 + g.2 * (iv.tc k - K.T0)
      let c := curvesOf iv fun k => gamma k * (vthOf K iv k * cells_in_series)
      match initialIvParams num lib c iv.pts (fun k => rsh.getD k nan) with
      | .error e => .error e
      | .ok s =>
        match updateIvParams num lib c s maxiter eps1 with
        | .error e => .error e
        | .ok s =>
          match extractPvsyst fl c K iv.tc gamma alpha_sc s with
          | .error e => .error e
          | .ok (p, r0) => .ok ⟨p, r0, g.1, g.2, cells_in_series, s⟩

end Pvlib.Sdm
