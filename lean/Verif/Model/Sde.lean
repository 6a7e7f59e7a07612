import Verif.Model.IvUtils

/-! # Model of `pvlib/ivtools/sde.py`: fitting the single diode equation to one IV curve

`numpy`'s least-squares and eigenvector routines are third-party and enter as a `LinLib`. -/

noncomputable section
open scoped Classical
open Real
namespace Pvlib.Sde
open Fl Pvlib.IvTools

/-- The third-party linear algebra `pvlib/ivtools/sde.py` calls.
`polyfit1 pts` is `np.polyfit(xs, ys, deg=1)` as `(slope, intercept)` (line 202; it raises `TypeError` on an empty
list, which the caller models); `lstsq eqs` is `np.linalg.lstsq(A, b)[0]` (lines 223, 441, 470), given as the list of the
equations `row · x = rhs`;
`topEig c11 c12 c22` is the unit eigenvector of the larger eigenvalue of the symmetric 2 by 2 covariance matrix
(lines 420-424). (Used for pvlib/ivtools/sde.py:201-208.) -/
structure LinLib where
  polyfit1 : List (Fl × Fl) → Fl × Fl
  lstsq : List (List Fl × Fl) → List Fl
  topEig : Fl → Fl → Fl → Fl × Fl

/-! ### `fit_sandia_simple` -/

/-- `_find_mp`, pvlib/ivtools/sde.py:168-190 (`np.argmax`: first largest; the curve is non-empty and free of NaN). -/
def findMp (n : ℕ) (voltage current : Series) : Except PyErr (Fl × Fl) :=
  match idxMax n (fun k => voltage k * current k) with
  | none => .error .valueError
  | some idx => .ok (voltage idx, current idx)

/-- `np.searchsorted(v, x)` for an increasing array: the number of elements below `x` (numpy;
pvlib/ivtools/sde.py:200). -/
def searchSorted (n : ℕ) (v : Series) (x : Fl) : ℕ := ((List.range n).filter (fun k => v k < x)).length

/-- `v[:idx], i[:idx]` as points, pvlib/ivtools/sde.py:202. -/
def prefixPts (v i : Series) (idx : ℕ) : List (Fl × Fl) := (List.range idx).map fun k => (v k, i k)

/-- The loop of `_sandia_beta0_beta1` over `idxs`, pvlib/ivtools/sde.py:201-208: the first prefix whose fitted slope is
negative; NaN if none. -/
def beta01Loop (lib : LinLib) (v i : Series) : List ℕ → Except PyErr (Fl × Fl)
  | [] => .ok (nan, nan)
  | idx :: idxs =>
      if idx = 0 then .error .typeError
      else
        let coef := lib.polyfit1 (prefixPts v i idx)
        if coef.1 < 0 then .ok (coef.2, -coef.1) else beta01Loop lib v i idxs

/-- `_sandia_beta0_beta1`, pvlib/ivtools/sde.py:193-213. -/
def sandiaBeta0Beta1 (lib : LinLib) (n : ℕ) (v i : Series) (vlim v_oc : Fl) : Except PyErr (Fl × Fl) :=
  let first_idx := searchSorted n v (vlim * v_oc)
  match beta01Loop lib v i (List.range' first_idx (n - first_idx)) with
  | .error e => .error e
  | .ok (beta0, beta1) => if isnan beta0 ∨ isnan beta1 then .error .runtimeError else .ok (beta0, beta1)

/-- The points selected for the exponential regression, pvlib/ivtools/sde.py:219-222. -/
def expIdx (n : ℕ) (voltage current : Series) (beta0 beta1 ilim i_sc : Fl) : List ℕ :=
  (List.range n).filter fun k => ilim * i_sc < beta0 - beta1 * voltage k - current k

/-- `_sandia_beta3_beta4`, pvlib/ivtools/sde.py:216-231.  With no point selected, `np.linalg.lstsq` of a matrix without
rows returns zeros (numpy: `if m == 0: x[...] = 0`). -/
def sandiaBeta3Beta4 (lib : LinLib) (n : ℕ) (voltage current : Series) (beta0 beta1 ilim i_sc : Fl) :
    Except PyErr (Fl × Fl) :=
  let idx := expIdx n voltage current beta0 beta1 ilim i_sc
  let coef := if idx = [] then [0, 0, 0] else lib.lstsq
    (idx.map fun k => ([1, voltage k, current k], Fl.log (beta0 - beta1 * voltage k - current k)))
  let beta3 := coef.getD 1 nan
  let beta4 := coef.getD 2 nan
  if isnan beta3 ∨ isnan beta4 then .error .runtimeError else .ok (beta3, beta4)

/-- `_calc_I0`, pvlib/ivtools/sde.py:255-257. -/
def calcI0 (voltage current iph gsh rs nNsVth : Fl) : Fl :=
  (iph - current - gsh * (voltage + rs * current)) / (Fl.exp ((voltage + rs * current) / nNsVth) - 1)

/-- The five parameters `(iph, io, rs, rsh, nNsVth)` returned by the fits. (Used for pvlib/ivtools/sde.py:234-252.) -/
structure Params where
  iph : Fl
  io : Fl
  rs : Fl
  rsh : Fl
  nNsVth : Fl

/-- `_sandia_simple_params`, pvlib/ivtools/sde.py:234-252.  The betas are Python floats (`.item()`, lines 205, 207, 225,
226), so the divisions of lines 236-239 raise `ZeroDivisionError` on a zero divisor; those of `_calc_I0` are numpy's. -/
def sandiaSimpleParams (beta0 beta1 beta3 beta4 v_mp i_mp v_oc : Fl) : Except PyErr Params :=
  if beta3 = 0 then .error .zeroDivision
  else
  let nNsVth := 1 / beta3
  let rs := beta4 / beta3
  if 1 - rs * beta1 = 0 then .error .zeroDivision
  else
  let gsh := beta1 / (1 - rs * beta1)
  if gsh = 0 then .error .zeroDivision
  else
  let rsh := 1 / gsh
  let iph := (1 + gsh * rs) * beta0
  let io_vmp := calcI0 v_mp i_mp iph gsh rs nNsVth
  let io_voc := calcI0 v_oc 0 iph gsh rs nNsVth
  if (isnan io_vmp ∨ isnan io_voc) ∨ (io_vmp ≤ 0 ∧ io_voc ≤ 0) then .error .runtimeError
  else
    let io := if 0 < io_vmp ∧ 0 < io_voc then 0.5 * (io_vmp + io_voc) else if 0 < io_vmp then io_vmp else io_voc
    .ok ⟨iph, io, rs, rsh, nNsVth⟩

/-- `fit_sandia_simple`, pvlib/ivtools/sde.py:13-165, on a non-empty curve (`n ≥ 1`). -/
def fitSandiaSimple (lib : LinLib) (n : ℕ) (voltage current : Series) (v_oc i_sc : Option Fl)
    (v_mp_i_mp : Option (Fl × Fl)) (vlim ilim : Fl) : Except PyErr Params :=
  let v_oc := match v_oc with | none => voltage (n - 1) | some x => x
  let i_sc := match i_sc with | none => current 0 | some x => x
  match (match v_mp_i_mp with | some p => Except.ok p | none => findMp n voltage current) with
  | .error e => .error e
  | .ok (v_mp, i_mp) =>
    match sandiaBeta0Beta1 lib n voltage current vlim v_oc with
    | .error e => .error e
    | .ok (beta0, beta1) =>
      match sandiaBeta3Beta4 lib n voltage current beta0 beta1 ilim i_sc with
      | .error e => .error e
      | .ok (beta3, beta4) => sandiaSimpleParams beta0 beta1 beta3 beta4 v_mp i_mp v_oc

/-! ### The co-content method -/

/-- `tmpint`, pvlib/ivtools/sde.py:377-383: element 0 is 0, element `k+1` the integral of piece `k`. -/
def tmpint (v : Series) (c : ℕ → Fl × Fl × Fl) : Series
  | 0 => 0
  | k + 1 =>
      let delx := v (k + 1) - v k
      Fl.sum [(c k).1 * fin (1 / 3) * delx ^ 3, (c k).2.1 * 0.5 * delx ^ 2, (c k).2.2 * 1 * delx]

/-- `np.cumsum(a[lo:])` at position `k ≥ lo` of the original array (numpy; pvlib/ivtools/sde.py:389-396). -/
def cumsumFrom (a : Series) (lo k : ℕ) : Fl := Fl.sum ((List.range' lo (k + 1 - lo)).map a)

/-- `scc` after line 389 of pvlib/ivtools/sde.py. (Used for pvlib/ivtools/sde.py:386-396.) -/
def scc1 (v : Series) (c : ℕ → Fl × Fl × Fl) (isc : Fl) (k : ℕ) : Fl :=
  if k < 5 then isc * v k - cumsumFrom (tmpint v c) 0 k else 0

/-- `scc` after line 391. (Used for pvlib/ivtools/sde.py:386-396.) -/
def scc2 (xn : ℕ) (v : Series) (c : ℕ → Fl × Fl × Fl) (isc : Fl) (k : ℕ) : Fl :=
  if 5 ≤ k ∧ k < xn - 5 then isc * (v k - v 4) - cumsumFrom (tmpint v c) 5 k + scc1 v c isc 4 else scc1 v c isc k

/-- `scc`, pvlib/ivtools/sde.py:386-396, for `xn ≥ 6` knots. -/
def scc (xn : ℕ) (v : Series) (c : ℕ → Fl × Fl × Fl) (isc : Fl) (k : ℕ) : Fl :=
  if xn - 5 ≤ k then
    isc * (v k - v (xn - 6)) - cumsumFrom (tmpint v c) (xn - 5) k + scc2 xn v c isc (xn - 6)
  else scc2 xn v c isc k

/-- `_cocontent`, pvlib/ivtools/sde.py:370-401, on the rows returned by the spline. -/
def cocontent (rows : List QRow) (isc : Fl) : List Fl :=
  let xn := rows.length
  let v : Series := fun k => (rows.map QRow.t).getD k nan
  let c : ℕ → Fl × Fl × Fl := fun k => (rows.map fun r => (r.c0, r.c1, r.c2)).getD k (nan, nan, nan)
  ((List.range xn).filter fun k => ¬ (rows.map QRow.kflag).getD k false).map (scc xn v c isc)

/-- `np.mean`, pvlib/ivtools/sde.py:415, 433. -/
def npMean (n : ℕ) (x : Series) : Fl := Fl.sum ((List.range n).map x) / fin n

/-- `np.std(x, ddof=1)`, pvlib/ivtools/sde.py:416, 458-466. -/
def npStd1 (n : ℕ) (x : Series) : Fl :=
  let m := npMean n x
  Fl.sqrt (Fl.sum ((List.range n).map fun k => (x k - m) ^ 2) / fin ((n : ℝ) - 1))

/-- An entry of `np.cov` of two columns, pvlib/ivtools/sde.py:420. -/
def npCov (n : ℕ) (x y : Series) : Fl :=
  let mx := npMean n x
  let my := npMean n y
  Fl.sum ((List.range n).map fun k => (x k - mx) * (y k - my)) / fin ((n : ℝ) - 1)

/-- Row `p` times column vector: the entry of a matrix product (`np.dot`), pvlib/ivtools/sde.py:430, 470. -/
def dotL (p q : List Fl) : Fl := Fl.sum (List.zipWith (· * ·) p q)

/-- `mb`, pvlib/ivtools/sde.py:449-454. -/
def matMb (r00 r01 r10 r11 : Fl) : List (List Fl) :=
  [[r00, r10, 0, 0, 0],
   [r01, r11, 0, 0, 0],
   [0, 0, r00 * r11 + r01 * r10, 2 * r00 * r01, 2 * r10 * r11],
   [0, 0, r00 * r10, r00 ^ 2, r10 ^ 2],
   [0, 0, r01 * r11, r01 ^ 2, r11 ^ 2]]

/-- `ma`, pvlib/ivtools/sde.py:458-466 (`sv`, `si` the standard deviations, `mv`, `mi` the means of `v`, `isc - i`). -/
def matMa (sv si mv mi : Fl) : List (List Fl) :=
  [[sv, 0, sv * mi, 2 * sv * mv, 0],
   [0, si, si * mv, 0, 2 * si * mi],
   [0, 0, sv * si, 0, 0],
   [0, 0, 0, sv ^ 2, 0],
   [0, 0, 0, 0, si ^ 2]]

/-- `np.dot` of two 5 by 5 matrices given by rows, pvlib/ivtools/sde.py:470. -/
def matMul5 (A B : List (List Fl)) : List (List Fl) :=
  A.map fun row => (List.range 5).map fun j => dotL row (B.map fun r => r.getD j nan)

/-- `_cocontent_regress`, pvlib/ivtools/sde.py:404-471.  `i2 = isc - i` is the second predictor. -/
def cocontentRegress (lib : LinLib) (n : ℕ) (v i : Series) (isc : Fl) (cci : Series) : List Fl :=
  let i2 : Series := fun k => isc - i k
  let mv := npMean n v
  let mi := npMean n i2
  let sv := npStd1 n v
  let si := npStd1 n i2
  let z1 : Series := fun k => (v k - mv) / sv
  let z2 : Series := fun k => (i2 k - mi) / si
  let ev1 := lib.topEig (npCov n z1 z1) (npCov n z1 z2) (npCov n z2 z2)
  let ev2 : Fl × Fl := (0 * ev1.1 + (-1) * ev1.2, 1 * ev1.1 + 0 * ev1.2)
  let r00 := ev1.1
  let r01 := ev1.2
  let r10 := ev2.1
  let r11 := ev2.2
  let s0 : Series := fun k => z1 k * r00 + z2 k * r10
  let s1 : Series := fun k => z1 k * r01 + z2 k * r11
  let mcc := npMean n cci
  let gamma := lib.lstsq
    ((List.range n).map fun k => ([s0 k, s1 k, s0 k * s1 k, s0 k * s0 k, s1 k * s1 k, 1], cci k - mcc))
  lib.lstsq ((matMul5 (matMb r00 r01 r10 r11) (matMa sv si mv mi)).zip (gamma.take 5))

/-- The parameters from the regression coefficients, pvlib/ivtools/sde.py:343-367: `(iph, io, rs, rsh, n)`
(the last field of `Params` holds the ideality factor `n` here). -/
def cocontentParams (beta : List Fl) (isc voc nsvth : Fl) : Params :=
  let b0 := beta.getD 0 nan
  let b1 := beta.getD 1 nan
  let b3 := beta.getD 3 nan
  let b4 := beta.getD 4 nan
  let betagp := b3 * 2
  let betars := (Fl.sqrt (1 + 16 * b3 * b4) - 1) / (4 * b3)
  let betan := (b0 * (Fl.sqrt (1 + 16 * b3 * b4) - 1) + 4 * b1 * b3) / (4 * b3 * nsvth)
  let betaio := (isc - voc * betagp) / Fl.exp (voc / (betan * nsvth))
  let betaiph := isc - betaio + betaio * Fl.exp (isc / (betan * nsvth)) + isc * betars * betagp
  ⟨betaiph, betaio, betars, 1 / betagp, betan⟩

/-- `_fit_sandia_cocontent`, pvlib/ivtools/sde.py:260-367; `nv`, `ni` are the lengths of the two arrays. -/
def fitSandiaCocontent (lib : LinLib) (nv ni : ℕ) (voltage current : Series) (nsvth : Fl) : Except PyErr Params :=
  if ni ≠ nv then .error .valueError
  else if nv < 6 then .error .valueError
  else
    let isc := current 0
    let voc := voltage (nv - 1)
    let rows := schumakerQspline nv voltage current
    let cci := cocontent rows isc
    let beta := cocontentRegress lib nv voltage current isc (fun k => cci.getD k nan)
    .ok (cocontentParams beta isc voc nsvth)

end Pvlib.Sde
