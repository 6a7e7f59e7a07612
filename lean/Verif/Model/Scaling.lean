import Verif.Model.Tools
import Verif.Base.Series

/-! # Model of `pvlib/scaling.py` (wavelet variability model) -/

noncomputable section
open scoped Classical
namespace Pvlib.Scaling
open Fl

/-- `np.pad(vals, (n, n), 'symmetric')`, pvlib/scaling.py:262: the signal mirrored on both sides. -/
def padSymmetric (n : ℕ) (vals : Series) : Series := fun j =>
  if j < n then vals (n - 1 - j)
  else if j < 2 * n then vals (j - n)
  else vals (n - 1 - (j - 2 * n))

/-- The positions pandas averages for element `j` of `rolling(window=w, center=True, min_periods=1)` on `N`
elements: a trailing window of `w` ending at `j + (w-1)//2`, NaN skipped; pvlib/scaling.py:280. -/
def rollIdx (N w : ℕ) (x : Series) (j : ℕ) : List ℕ :=
  (List.range N).filter fun k => decide (k ≤ j + (w - 1) / 2 ∧ j + (w - 1) / 2 < k + w ∧ ¬ isnan (x k))

/-- The centred rolling mean, pvlib/scaling.py:280. -/
def rollMean (N w : ℕ) (x : Series) : Series := fun j =>
  if rollIdx N w x j = [] then nan
  else Fl.sum ((rollIdx N w x j).map x) / fin (rollIdx N w x j).length

/-- `bfill` on `N` elements: the next non-NaN value, pvlib/scaling.py:282. -/
def bfill (N : ℕ) (x : Series) : Series := fun j =>
  match ((List.range N).filter fun k => decide (j ≤ k ∧ ¬ isnan (x k))).head? with
  | some k => x k
  | none => nan

/-- `np.roll(x, -1)` on `N` elements, then `x[-1] = x[-2]`; pvlib/scaling.py:286-287. -/
def shiftLast (N : ℕ) (x : Series) : Series := fun j =>
  if j = N - 1 then x ((N - 2 + 1) % N) else x ((j + 1) % N)

/-- Row `i` of `csi_mean`, pvlib/scaling.py:270-287 (`n` samples, padded to `3 n`). -/
def csiMean (n : ℕ) (vals : Series) (i : ℕ) : Series :=
  let cs_long := padSymmetric n vals
  if i = 0 then cs_long
  else shiftLast (3 * n) (Series.ffill (bfill (3 * n) (rollMean (3 * n) (2 ^ i) cs_long)))

/-- Row `i` of `wavelet`, pvlib/scaling.py:289-298, with `M` time scales: differences of successive averages,
the last row is the coarsest average; padding clipped off. -/
def wavelet (n M : ℕ) (vals : Series) (i : ℕ) : Series := fun j =>
  if i < M - 1 then csiMean n vals i (n + j) - csiMean n vals (i + 1) (n + j)
  else csiMean n vals (M - 1) (n + j)

/-- Number of time scales `max_tmscale`, pvlib/scaling.py:266-267, for a finite positive `dt` in seconds. -/
def maxTmscale (dt : ℝ) : ℤ := 13 - ⌈Real.log dt / Real.log 2⌉

/-- `tmscales`, pvlib/scaling.py:269-276. -/
def tmscale (dt : Fl) (i : ℕ) : Fl := if i = 0 then dt else 2 ^ i * dt

/-- `_compute_vr` for one time scale, pvlib/scaling.py:129-149.  `dist` is the list of pairwise distances
(`pdist`); `n_dist` is the number of sites recovered by the numerical minimiser (`scipy.optimize.fmin`, not
modelled: an arbitrary number here). -/
def computeVr (dist : List Fl) (n_dist cloud_speed tmscale : Fl) : Fl :=
  let A := cloud_speed / 2
  let rho := dist.map fun d => Fl.exp (-1 / A * d / tmscale)
  let denominator := 2 * Fl.sum rho + n_dist
  n_dist ^ 2 / denominator

/-- Row `i` of `wavelet_smooth`, pvlib/scaling.py:71-77. -/
def waveletSmooth (n M : ℕ) (vals : Series) (vr : ℕ → Fl) (i : ℕ) : Series := fun j =>
  if i < M - 1 then wavelet n M vals i j / Fl.sqrt (vr i) else wavelet n M vals i j

/-- `smoothed` of `wvm`, pvlib/scaling.py:67-86, for given variability reductions. -/
def smoothed (n M : ℕ) (vals : Series) (vr : ℕ → Fl) : Series := fun j =>
  Fl.sum ((List.range M).map fun i => waveletSmooth n M vals vr i j)

/-- `wvm` on a numpy signal of `n` samples with time step `dt`, pvlib/scaling.py:13-86, 208-300:
(smoothed, wavelet, number of scales).  No scale at all is an IndexError (`tmscales[0]`), a negative number
a ValueError (`np.zeros`). -/
def wvm (n : ℕ) (vals : Series) (dist : List Fl) (n_dist cloud_speed : Fl) (dt : ℝ) :
    Except PyErr (Series × (ℕ → Series) × ℕ) :=
  let max_tmscale := maxTmscale dt
  if max_tmscale < 0 then .error .valueError
  else if max_tmscale = 0 then .error .indexError
  else
    let M := max_tmscale.toNat
    .ok (smoothed n M vals (fun i => computeVr dist n_dist cloud_speed (tmscale (fin dt) i)), wavelet n M vals, M)

end Pvlib.Scaling
end
