import Verif.Base.Lemmas

/-! # Python values shared by the models: exceptions, and NaN-or specifications -/

/-- The Python exceptions the modelled code raises. -/
inductive PyErr where
  | valueError
  | typeError
  | keyError (key : String)
  | attributeError
  | notImplementedError
  | indexError
  | runtimeError
  | unboundLocal
  | zeroDivision
  deriving DecidableEq, Repr

deriving instance DecidableEq for Except

/-- Python's `s.lower()` (character by character; exact for ASCII, which is all the names the code
compares against). -/
def pyLower (s : String) : String := String.ofList (s.toList.map Char.toLower)

namespace Fl

/-- Specification helper: "`x` is NaN, or a real number satisfying `p`". -/
def NanOr (x : Fl) (p : ℝ → Prop) : Prop := x = nan ∨ ∃ r, x = fin r ∧ p r

@[simp] theorem nanOr_nan (p : ℝ → Prop) : NanOr nan p := Or.inl rfl
@[simp] theorem nanOr_fin (r : ℝ) (p : ℝ → Prop) : NanOr (fin r) p ↔ p r := by
  simp [NanOr]

/-- `sum(xs)` for a Python/numpy sequence (left fold from 0). -/
noncomputable def sum (xs : List Fl) : Fl := xs.foldl (· + ·) 0

end Fl

namespace Fl
theorem foldl_add_fin (xs : List ℝ) (a : ℝ) :
    (xs.map fin).foldl (· + ·) (fin a) = fin (a + xs.sum) := by
  induction xs generalizing a with
  | nil => simp
  | cons x xs ih =>
      simp only [List.map_cons, List.foldl_cons, fin_add, ih, List.sum_cons]
      rw [add_assoc]
@[simp] theorem sum_fin (xs : List ℝ) : Fl.sum (xs.map fin) = fin xs.sum := by
  simpa [Fl.sum] using foldl_add_fin xs 0
theorem sum_perm {xs ys : List Fl} (h : xs.Perm ys) : Fl.sum xs = Fl.sum ys := by
  unfold Fl.sum
  haveI : RightCommutative (α := Fl) (β := Fl) (fun a b => a + b) := ⟨fun a b c => add_right_comm' a b c⟩
  exact h.foldl_eq _
end Fl
