import Verif.Base.Series
import Verif.Base.Py
import Mathlib.Algebra.Polynomial.Eval.Defs
import Mathlib.Algebra.Polynomial.Derivative

/-! # Model of `pvlib/ivtools/utils.py`: numerical derivative, IV-curve rectification, quadratic spline,
ASTM E1036 parameters

Arrays are a length `n` with a total index function `ℕ → Fl` (`Series`), or a list where rows are reordered. -/

noncomputable section
open scoped Classical
open Real
namespace Pvlib.IvTools
open Fl

/-! ### Numerical differentiation -/

/-- The weights `u1` of `_numdiff`, pvlib/ivtools/utils.py:80-94. -/
def nd_u1 (a0 a1 a2 a3 a4 : Fl) : Fin 5 → Fl
  | 0 => a1 * a2 * a3 + a1 * a2 * a4 + a1 * a3 * a4 + a2 * a3 * a4
  | 1 => a0 * a2 * a3 + a0 * a2 * a4 + a0 * a3 * a4 + a2 * a3 * a4
  | 2 => a0 * a1 * a3 + a0 * a1 * a4 + a0 * a3 * a4 + a1 * a3 * a4
  | 3 => a0 * a1 * a2 + a0 * a1 * a4 + a0 * a2 * a4 + a1 * a2 * a4
  | 4 => a0 * a1 * a2 + a0 * a1 * a3 + a0 * a2 * a3 + a1 * a2 * a3

/-- The denominators `left` of `_numdiff`, pvlib/ivtools/utils.py:96-105. -/
def nd_left (a0 a1 a2 a3 a4 : Fl) : Fin 5 → Fl
  | 0 => (a0 - a1) * (a0 - a2) * (a0 - a3) * (a0 - a4)
  | 1 => (a1 - a0) * (a1 - a2) * (a1 - a3) * (a1 - a4)
  | 2 => (a2 - a0) * (a2 - a1) * (a2 - a3) * (a2 - a4)
  | 3 => (a3 - a0) * (a3 - a1) * (a3 - a2) * (a3 - a4)
  | 4 => (a4 - a0) * (a4 - a1) * (a4 - a2) * (a4 - a3)

/-- The weights `u2` of `_numdiff`, pvlib/ivtools/utils.py:110-124 (as written in the code). -/
def nd_u2 (a0 a1 a2 a3 a4 : Fl) : Fin 5 → Fl
  | 0 => a1 * a2 + a1 * a3 + a1 * a4 + a2 * a3 + a2 * a4 + a3 * a4
  | 1 => a0 * a2 + a0 * a3 + a0 * a4 + a2 * a3 + a2 * a4 + a3 * a4
  | 2 => a0 * a1 + a0 * a3 + a0 * a4 + a1 * a3 + a1 * a3 + a3 * a4
  | 3 => a0 * a1 + a0 * a2 + a0 * a4 + a1 * a2 + a1 * a4 + a2 * a4
  | 4 => a0 * a1 + a0 * a2 + a0 * a3 + a1 * a2 + a1 * a4 + a2 * a3

/-- `_numdiff(x, f)`, pvlib/ivtools/utils.py:18-127, element `i` (`i < n`) of the pair `(df, df2)`.  The rows of
the `n-4` by 5 arrays `ff`, `a0` are the five points `i-2 … i+2`. -/
def numdiff (n : ℕ) (x f : Series) (i : ℕ) : Fl × Fl :=
  if i < 2 ∨ n ≤ i + 2 then (nan, nan)
  else
    let ff : Fin 5 → Fl := fun j => f (i - 2 + j)
    let a0 : Fin 5 → Fl := fun j => x (i - 2 + j) - x i
    let u1 := nd_u1 (a0 0) (a0 1) (a0 2) (a0 3) (a0 4)
    let left := nd_left (a0 0) (a0 1) (a0 2) (a0 3) (a0 4)
    let u2 := nd_u2 (a0 0) (a0 1) (a0 2) (a0 3) (a0 4)
    (Fl.sum (List.ofFn fun j => -(u1 j / left j) * ff j), 2 * Fl.sum (List.ofFn fun j => u2 j * ff j))

/-! ### Rectification of an IV curve -/

/-- `np.round(v, decimals)` on a float: scale, round half to even, unscale (numpy; called at
pvlib/ivtools/utils.py:170). -/
def npRound (decimals : ℕ) (v : Fl) : Fl :=
  match v with
  | fin r =>
      let y := r * 10 ^ decimals
      let k : ℤ := if Int.fract y = 1 / 2 then (if Even ⌊y⌋ then ⌊y⌋ else ⌊y⌋ + 1) else round y
      fin (k / 10 ^ decimals)
  | v => v

/-- `mean` of a pandas group (called at pvlib/ivtools/utils.py:175). -/
def groupMean (xs : List Fl) : Fl := Fl.sum xs / fin xs.length

/-- `rectify_iv_curve(voltage, current, decimals)`, pvlib/ivtools/utils.py:130-178, on the list of
(voltage, current) pairs (the two arrays are stacked, so their lengths agree).  The `sort_values` of line 166 is
followed by `np.unique` and a group mean, which do not depend on the order of the rows, so the sort is
transcribed but only its multiset of rows matters. -/
def rectifyIvCurve (pts : List (Fl × Fl)) (decimals : Option ℕ) : List (Fl × Fl) :=
  let df := pts.filter (fun p => ¬ isnan p.1 ∧ ¬ isnan p.2)
  let df := df.filter (fun p => 0 ≤ p.1 ∧ 0 ≤ p.2)
  let df := df.mergeSort (fun (p q : Fl × Fl) => decide (p.1 < q.1 ∨ (eqv p.1 q.1 ∧ q.2 ≤ p.2)))
  let df := match decimals with
    | none => df
    | some d => df.map (fun (p : Fl × Fl) => (npRound d p.1, p.2))
  let uniq := ((df.map Prod.fst).dedup).mergeSort (fun a b => decide (a ≤ b))
  uniq.map (fun u =>
    let g := df.filter (fun (p : Fl × Fl) => p.1 = u)
    (groupMean (g.map Prod.fst), groupMean (g.map Prod.snd)))

/-! ### Schumaker's quadratic spline -/

/-- `EPS_val`, pvlib/ivtools/utils.py:15: the machine epsilon of float64. -/
def epsVal : ℝ := (2 : ℝ) ^ (-52 : ℤ)

/-- `EPS_slope`, pvlib/ivtools/utils.py:13: its cube root. -/
def epsSlope : ℝ := epsVal ^ ((1 : ℝ) / 3)

/-- `np.isclose(a, b, atol=atol)` with the default `rtol = 1e-5` (numpy; pvlib/ivtools/utils.py:269, 321, 322). -/
def npIsclose (a b : Fl) (atol : ℝ) : Prop :=
  eqv a b ∨ (isfinite b ∧ Fl.abs (a - b) ≤ fin atol + 1e-5 * Fl.abs b)

/-- `delx`, pvlib/ivtools/utils.py:235. -/
def qDelx (x : Series) (i : ℕ) : Fl := x (i + 1) - x i

/-- `delta`, pvlib/ivtools/utils.py:236-238. -/
def qDelta (x y : Series) (i : ℕ) : Fl := (y (i + 1) - y i) / qDelx x i

/-- `left`, pvlib/ivtools/utils.py:244. -/
def qLeft (x y : Series) (i : ℕ) : Fl := if i = 0 then 0 else qDelta x y (i - 1)

/-- `right`, pvlib/ivtools/utils.py:245. -/
def qRight (n : ℕ) (x y : Series) (i : ℕ) : Fl := if i = n - 1 then 0 else qDelta x y i

/-- `s` after the interior assignment, pvlib/ivtools/utils.py:242-253. -/
def qSlope0 (n : ℕ) (x y : Series) (i : ℕ) : Fl :=
  let pdelta := qLeft x y i * qRight n x y i
  if 0 < pdelta then pdelta / (0.5 * qLeft x y i + 0.5 * qRight n x y i) else 0

/-- `s` after the left-endpoint assignment, pvlib/ivtools/utils.py:256-258. -/
def qSlope1 (n : ℕ) (x y : Series) (i : ℕ) : Fl :=
  let left_end := 2 * qDelta x y 0 - qSlope0 n x y 1
  if i = 0 ∧ 0 < qDelta x y 0 * left_end then left_end else qSlope0 n x y i

/-- `s`, the slope at each data point, pvlib/ivtools/utils.py:242-263 (the right-endpoint assignment is last;
`s[-2]` is read after the left-endpoint assignment). -/
def qSlope (n : ℕ) (x y : Series) (i : ℕ) : Fl :=
  let right_end := 2 * qDelta x y (n - 2) - qSlope1 n x y (n - 2)
  if i = n - 1 ∧ 0 < qDelta x y (n - 2) * right_end then right_end else qSlope1 n x y i

/-- `u[i]`: interval `i` gets no inserted knot, pvlib/ivtools/utils.py:268-269. -/
def qNoKnot (n : ℕ) (x y : Series) (i : ℕ) : Prop :=
  npIsclose (qSlope n x y i + qSlope n x y (i + 1)) (2 * qDelta x y i) epsSlope

/-- `aa`, pvlib/ivtools/utils.py:316, 321. -/
def qAa (n : ℕ) (x y : Series) (i : ℕ) : Fl :=
  let aa := qSlope n x y i - qDelta x y i
  if npIsclose aa 0 epsVal then 0 else aa

/-- `b`, pvlib/ivtools/utils.py:317, 322. -/
def qB (n : ℕ) (x y : Series) (i : ℕ) : Fl :=
  let b := qSlope n x y (i + 1) - qDelta x y i
  if npIsclose b 0 epsVal then 0 else b

/-- `v`, pvlib/ivtools/utils.py:330-332. -/
def qMaskV (n : ℕ) (x y : Series) (i : ℕ) : Prop := ¬ qNoKnot n x y i ∧ 0 ≤ qAa n x y i * qB n x y i

/-- `w`, pvlib/ivtools/utils.py:341-343. -/
def qMaskW (n : ℕ) (x y : Series) (i : ℕ) : Prop :=
  (¬ qNoKnot n x y i ∧ ¬ qMaskV n x y i) ∧ Fl.abs (qB n x y i) < Fl.abs (qAa n x y i)

/-- `z`, pvlib/ivtools/utils.py:353-354. -/
def qMaskZ (n : ℕ) (x y : Series) (i : ℕ) : Prop :=
  (¬ qNoKnot n x y i ∧ ¬ qMaskV n x y i) ∧ ¬ qMaskW n x y i

/-- `diffs`, pvlib/ivtools/utils.py:290. -/
def qDiffs (n : ℕ) (x y : Series) (i : ℕ) : Fl := qSlope n x y (i + 1) - qSlope n x y i

/-- The abscissa of the knot inserted in interval `i`: lines 336, 347, 358-359 of pvlib/ivtools/utils.py;
it is also `xi[i]` (lines 339, 351, 363). (Used for pvlib/ivtools/utils.py:367-371.) -/
def qXi (n : ℕ) (x y : Series) (i : ℕ) : Fl :=
  if qMaskV n x y i then 0.5 * (x i + x (i + 1))
  else if qMaskW n x y i then x (i + 1) + qAa n x y i * qDelx x i / qDiffs n x y i
  else x i + qB n x y i * qDelx x i / qDiffs n x y i

/-- `sbar` for interval `i`: pvlib/ivtools/utils.py:367-371 (for the row of the left data point) and, the same
expression over the copied `uu` row, 376-384 (for the row of the inserted knot). -/
def qSbar (n : ℕ) (x y : Series) (i : ℕ) : Fl :=
  (2 * qDelta x y i - qSlope n x y (i + 1)) +
    (qSlope n x y (i + 1) - qSlope n x y i) * (qXi n x y i - x i) / (x (i + 1) - x i)

/-- `eta` for interval `i`: pvlib/ivtools/utils.py:372-374 and 385-389. -/
def qEta (n : ℕ) (x y : Series) (i : ℕ) : Fl := (qSbar n x y i - qSlope n x y i) / (qXi n x y i - x i)

/-- One row of `tmp`, pvlib/ivtools/utils.py:417: knot, the three coefficients, knot value, inserted flag. -/
structure QRow where
  t : Fl
  c0 : Fl
  c1 : Fl
  c2 : Fl
  yhat : Fl
  kflag : Bool

/-- The row of data point `i < n - 1`: pvlib/ivtools/utils.py:304-309 (no inserted knot) and 313-314, 392-394. -/
def qBaseRow (n : ℕ) (x y : Series) (i : ℕ) : QRow :=
  if qNoKnot n x y i then ⟨x i, 0.5 * qDiffs n x y i / qDelx x i, qSlope n x y i, y i, y i, false⟩
  else ⟨x i, 0.5 * qEta n x y i, qSlope n x y i, y i, y i, false⟩

/-- The row of the knot inserted in interval `i`: pvlib/ivtools/utils.py:396-411, 415. -/
def qKnotRow (n : ℕ) (x y : Series) (i : ℕ) : QRow :=
  let c2 := y i + qSlope n x y i * (qXi n x y i - x i) + 0.5 * qEta n x y i * (qXi n x y i - x i) ^ 2
  ⟨qXi n x y i, 0.5 * (qSlope n x y (i + 1) - qSbar n x y i) / (x (i + 1) - x i), qSbar n x y i, c2, c2, true⟩

/-- The order of `argsort` on the first column: NaN last (numpy; pvlib/ivtools/utils.py:419). -/
def qKeyLe (p q : QRow) : Bool := decide (p.t ≤ q.t ∨ isnan q.t)

/-- `_schumaker_qspline(x, y)`, pvlib/ivtools/utils.py:181-426: the rows `(t, c, yhat, kflag)` in output order.
The rows are laid out as in the code (data points, the three kinds of inserted knots, the last point) and stably
sorted by knot.  The last row's coefficients (zeros) are not part of the returned `c`. -/
def schumakerQspline (n : ℕ) (x y : Series) : List QRow :=
  let ivals := List.range (n - 1)
  let tmp := ivals.map (qBaseRow n x y) ++ (ivals.filter (fun i => qMaskV n x y i)).map (qKnotRow n x y)
    ++ (ivals.filter (fun i => qMaskW n x y i)).map (qKnotRow n x y)
    ++ (ivals.filter (fun i => qMaskZ n x y i)).map (qKnotRow n x y)
    ++ [⟨x (n - 1), 0, 0, 0, y (n - 1), false⟩]
  tmp.mergeSort qKeyLe

/-! ### ASTM E1036 -/

/-- First index of the smallest value of `f` on `0 … n-1` (`Series.idxmin` of a frame with the default index,
pvlib/ivtools/utils.py:483-484; NaN entries are skipped). -/
def idxMin (n : ℕ) (f : Series) : Option ℕ :=
  ((List.range n).find? fun k => decide (¬ isnan (f k) ∧ ∀ j < n, ¬ isnan (f j) → f k ≤ f j))

/-- First index of the largest value (`Series.idxmax`, pvlib/ivtools/utils.py:507). -/
def idxMax (n : ℕ) (f : Series) : Option ℕ :=
  ((List.range n).find? fun k => decide (¬ isnan (f k) ∧ ∀ j < n, ¬ isnan (f j) → f j ≤ f k))

/-- `df.nsmallest(k, key)`: the `k` rows with the smallest key, in key order, first rows first on ties
(pandas; pvlib/ivtools/utils.py:494, 502). -/
def nSmallest (k : ℕ) (key : Fl × Fl → Fl) (rows : List (Fl × Fl)) : List (Fl × Fl) :=
  ((rows.filter (fun p => ¬ isnan (key p))).mergeSort (fun p q => decide (key p ≤ key q))).take k

/-- The result of `astm_e1036` (without `mp_fit`), pvlib/ivtools/utils.py:537-544. -/
structure Astm where
  voc : Fl
  isc : Fl
  vmp : Fl
  imp : Fl
  pmp : Fl
  ff : Fl

/-- The third-party polynomial code `astm_e1036` calls: `Polynomial.fit(xs, ys, deg)` on a list of points
(modelled for finite data, where it returns a polynomial) and `Polynomial.roots()` (complex roots). (Used for pvlib/ivtools/utils.py:429-546.) -/
structure PolyLib where
  fit : ℕ → List (Fl × Fl) → Polynomial ℝ
  roots : Polynomial ℝ → List ℂ

/-- The first element of a list with the largest key (`roots[np.argmax(mp_fit(roots))]`,
pvlib/ivtools/utils.py:529; `np.argmax` of an empty array raises `ValueError`). -/
def argmaxBy (key : ℝ → ℝ) (xs : List ℝ) : Except PyErr ℝ :=
  match xs.find? (fun a => decide (∀ b ∈ xs, key b ≤ key a)) with
  | none => .error .valueError
  | some a => .ok a

/-- The candidate roots of lines 523-528 of pvlib/ivtools/utils.py: real parts of the roots of the derivative with
imaginary part below `1e-5`, strictly inside the voltage range of the filtered points. (Used for pvlib/ivtools/utils.py:429-546.) -/
def mpRoots (lib : PolyLib) (mp_fit : Polynomial ℝ) (filtered : List (Fl × Fl)) : List ℝ :=
  let roots := ((lib.roots (Polynomial.derivative mp_fit)).filter (fun z => |z.im| < 1e-5)).map Complex.re
  roots.filter (fun r => (∃ p ∈ filtered, fin r < p.1) ∧ (∃ p ∈ filtered, p.1 < fin r))

/-- `astm_e1036(v, i, imax_limits, vmax_limits, voc_points, isc_points, mp_fit_order)`,
pvlib/ivtools/utils.py:429-546, on finite data.  `filtered['v'].max()` exceeds `r` exactly when some filtered
voltage does. -/
def astmE1036 (lib : PolyLib) (n : ℕ) (v i : Series) (imax_limits : Fl × Fl := (0.75, 1.15))
    (vmax_limits : Fl × Fl := (0.75, 1.15)) (voc_points isc_points : ℕ := 3) (mp_fit_order : ℕ := 4) :
    Except PyErr Astm :=
  let rows := (List.range n).map fun k => (v k, i k)
  match idxMin n (fun k => Fl.abs (i k)), idxMin n (fun k => Fl.abs (v k)), idxMax n (fun k => v k * i k) with
  | some i_min_ind, some v_min_ind, some max_index =>
    let voc_est := v i_min_ind
    let isc_est := i v_min_ind
    let voc := if Fl.abs (i i_min_ind) ≤ isc_est * 0.001 then voc_est
      else fin ((lib.fit 1 ((nSmallest voc_points (fun p => Fl.abs p.2) rows).map Prod.swap)).eval 0)
    let isc := if Fl.abs (v v_min_ind) ≤ voc_est * 0.005 then isc_est
      else fin ((lib.fit 1 (nSmallest isc_points (fun p => Fl.abs p.1) rows)).eval 0)
    let mp_i := i max_index
    let mp_v := v max_index
    let filtered := rows.filter fun p =>
      imax_limits.1 * mp_i ≤ p.2 ∧ p.2 ≤ imax_limits.2 * mp_i ∧
        vmax_limits.1 * mp_v ≤ p.1 ∧ p.1 ≤ vmax_limits.2 * mp_v
    let mp_fit := lib.fit mp_fit_order (filtered.map fun p => (p.1, p.1 * p.2))
    match argmaxBy (fun r => mp_fit.eval r) (mpRoots lib mp_fit filtered) with
    | .error e => .error e
    | .ok vmp =>
      let pmp := fin (mp_fit.eval vmp)
      let imp := pmp / fin vmp
      let ff := pmp / (voc * isc)
      .ok ⟨voc, isc, fin vmp, imp, pmp, ff⟩
  | _, _, _ => .error .valueError

end Pvlib.IvTools
