import Verif.Base.Py

/-! # pandas / numpy operations on a time series

A Series (or 1-d array) of length `n` is modelled by the function giving its value at each position;
only positions `< n` mean anything.  Every operation below is *causal* (position `i` of the result
depends on positions `≤ i` only), so no statement about position `i < n` can depend on values at
positions `≥ n`.  All Series that meet in one call are assumed to share one index. -/

noncomputable section
open scoped Classical

/-- A pandas Series of floats, by position. -/
abbrev Series := ℕ → Fl

namespace Series
open Fl

/-- `np.cumsum`: NaN propagates to every later entry. -/
def npCumsum (x : Series) : Series
  | 0 => x 0
  | i + 1 => npCumsum x i + x (i + 1)

/-- `Series.ffill()`. -/
def ffill (x : Series) : Series
  | 0 => x 0
  | i + 1 => if x (i + 1) = nan then ffill x i else x (i + 1)

/-- `Series.cumsum()` of a boolean Series. -/
def boolCumsum (b : ℕ → Prop) : ℕ → ℕ
  | 0 => if b 0 then 1 else 0
  | i + 1 => boolCumsum b i + if b (i + 1) then 1 else 0

/-- `x.groupby(id).cumsum()` (pandas, `skipna=True`): at position `i`, NaN if `x` is NaN there,
otherwise the sum of the non-NaN `x[j]`, `j ≤ i`, with the same group id. -/
def groupCumsum (id : ℕ → ℕ) (x : Series) : Series := fun i =>
  if x i = nan then nan
  else ((List.range (i + 1)).filter (fun j => id j = id i ∧ x j ≠ nan)).foldl (fun a j => a + x j) 0

/-- Masked assignment `x[mask] = v` / `x[mask] = y[mask]`. -/
def setMask (x : Series) (mask : ℕ → Prop) (v : Series) : Series := fun i =>
  if mask i then v i else x i

/-- `x.iloc[0] = v`. -/
def setFirst (x : Series) (v : Fl) : Series := fun i => if i = 0 then v else x i

/-- `Series.clip(lower=lo)` (NaN stays NaN). -/
def clipLower (x : Series) (lo : Fl) : Series := fun i => maximum (x i) lo

/-- `x.rolling(period, closed='right').sum()` on a time index `t` (increasing): the sum of the non-NaN
values at the times in `(t_i - period, t_i]`, NaN if there is none (`min_periods=1` for an offset
window). -/
def rollingSum (t : ℕ → ℝ) (period : ℝ) (x : Series) : Series := fun i =>
  let w := (List.range (i + 1)).filter (fun j => t i - period < t j ∧ x j ≠ nan)
  if w = [] then nan else w.foldl (fun a j => a + x j) 0

/-- `times.to_series().diff()`: NaN at the first position (in hours: `_time_delta_in_hours`, pvlib/snow.py:11-13). -/
def timeDiff (t : ℕ → ℝ) : Series
  | 0 => nan
  | i + 1 => fin (t (i + 1) - t i)

end Series
end
