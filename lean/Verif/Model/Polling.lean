import Verif.Base.Py
import Mathlib.Data.Real.Basic

/-! # Model of the polling loops of `get_era5` and `get_solaranywhere`

A server is an arbitrary sequence of answers, a clock an arbitrary sequence of readings.  The loops have no bound of their own, so
they are run for a number of passes; `none` means that the loop is still running. -/

namespace Pvlib.Polling

/-- What asking the server for the status of a job gives: a status, or an exception (of `requests`, of `json`, or KeyError).
(Used for pvlib/iotools/era5.py:157-159.) -/
inductive Answer where
  | successful
  | failed
  | other
  | raises (e : PyErr)

/-- How a polling loop ends, after `polls` requests and `slept` seconds of sleep. (Used for pvlib/iotools/era5.py:156-177.) -/
inductive Outcome where
  | ready
  | failed
  | timeout
  | raises (e : PyErr)

/-- The end of a loop: how it ended, after how many requests and how many seconds of sleep. (Used for pvlib/iotools/era5.py:156-177.) -/
structure Ended where
  outcome : Outcome
  polls : ℕ
  slept : ℕ

open Classical in
/-- The loop of `get_era5`, pvlib/iotools/era5.py:154-177, for at most `fuel` more passes; `num_polls` requests have been answered. -/
noncomputable def era5Loop (server : ℕ → Answer) (timeout : ℝ) : ℕ → ℕ → Option Ended
  | 0, _ => none
  | fuel + 1, num_polls => match server num_polls with
    | .raises e => some ⟨.raises e, num_polls + 1, num_polls⟩
    | .successful => some ⟨.ready, num_polls + 1, num_polls⟩
    | .failed => some ⟨.failed, num_polls + 1, num_polls⟩
    | .other =>
      if ((num_polls + 1 : ℕ) : ℝ) * 1 > timeout then some ⟨.timeout, num_polls + 1, num_polls⟩
      else era5Loop server timeout fuel (num_polls + 1)

open Classical in
/-- The loop of `get_solaranywhere`, pvlib/iotools/solaranywhere.py:188-199: `clock i` is the time at which the answer to request `i`
is examined.  Data that arrive after the time limit are still accepted. -/
noncomputable def solaranywhereLoop (server : ℕ → Answer) (clock : ℕ → ℝ) (start_time timeout : ℝ) : ℕ → ℕ → Option Ended
  | 0, _ => none
  | fuel + 1, n => match server n with
    | .raises e => some ⟨.raises e, n + 1, 5 * n⟩
    | .successful => some ⟨.ready, n + 1, 5 * n⟩
    | .failed => some ⟨.failed, n + 1, 5 * n⟩
    | .other =>
      if clock n - start_time > timeout then some ⟨.timeout, n + 1, 5 * n⟩
      else solaranywhereLoop server clock start_time timeout fuel (n + 1)

end Pvlib.Polling
