import Mathlib.Analysis.SpecialFunctions.Trigonometric.Arctan
import Mathlib.Analysis.SpecialFunctions.Trigonometric.Inverse
import Mathlib.Analysis.SpecialFunctions.Complex.Arg
import Mathlib.Analysis.SpecialFunctions.Pow.Real
import Mathlib.Algebra.Order.Round
import Mathlib.Tactic.Linarith
import Mathlib.Tactic.Ring
import Mathlib.Tactic.Positivity
import Mathlib.Tactic.FieldSimp
import Mathlib.Tactic.NormNum

/-!
# `Fl`: the numeric type of the model

pvlib computes with numpy `float64`.  `Fl` is that type with **exact** real
arithmetic in place of rounding: a value is NaN, `-inf`, `+inf` or a real number.
NaN propagation, comparisons with NaN (always false), `inf - inf`, `0 * inf`,
division by zero, and the domains of `log`, `sqrt`, `arccos`, ... follow IEEE-754
and numpy.  Two simplifications, recorded in DESIGN.md: there is no rounding, and
there is one (unsigned, positive) zero.
-/

noncomputable section
open scoped Classical
open Real

/-- A numpy `float64` with exact real arithmetic. -/
inductive Fl where
  | nan
  | ninf
  | fin (r : ℝ)
  | pinf

namespace Fl

instance : Coe ℝ Fl := ⟨Fl.fin⟩
instance : Inhabited Fl := ⟨nan⟩
instance : Zero Fl := ⟨fin 0⟩
instance : One Fl := ⟨fin 1⟩
instance {n : ℕ} [n.AtLeastTwo] : OfNat Fl n := ⟨fin (OfNat.ofNat n)⟩
instance : OfScientific Fl := ⟨fun m s e => fin (OfScientific.ofScientific m s e)⟩

@[simp] theorem zero_eq : (0 : Fl) = fin 0 := rfl
@[simp] theorem one_eq : (1 : Fl) = fin 1 := rfl
@[simp] theorem ofNat_eq {n : ℕ} [n.AtLeastTwo] :
    (OfNat.ofNat n : Fl) = fin (OfNat.ofNat n) := rfl
@[simp] theorem ofScientific_eq (m : ℕ) (s : Bool) (e : ℕ) :
    (OfScientific.ofScientific m s e : Fl) = fin (OfScientific.ofScientific m s e) := rfl

/-! ### Arithmetic (IEEE-754, no rounding) -/

/-- IEEE addition. -/
protected def add : Fl → Fl → Fl
  | fin a, fin b => fin (a + b)
  | nan, _ => nan
  | _, nan => nan
  | pinf, ninf => nan
  | ninf, pinf => nan
  | pinf, _ => pinf
  | _, pinf => pinf
  | ninf, _ => ninf
  | _, ninf => ninf

/-- IEEE negation. -/
protected def neg : Fl → Fl
  | nan => nan
  | ninf => pinf
  | fin a => fin (-a)
  | pinf => ninf

/-- The infinity with the sign of `s`, NaN if `s = 0` (`0 * inf`). -/
def infSign (s : ℝ) : Fl := if 0 < s then pinf else if s < 0 then ninf else nan

/-- IEEE multiplication. -/
protected def mul : Fl → Fl → Fl
  | fin a, fin b => fin (a * b)
  | nan, _ => nan
  | _, nan => nan
  | pinf, pinf => pinf
  | ninf, ninf => pinf
  | pinf, ninf => ninf
  | ninf, pinf => ninf
  | fin a, pinf => infSign a
  | pinf, fin a => infSign a
  | fin a, ninf => infSign (-a)
  | ninf, fin a => infSign (-a)

/-- IEEE division (numpy: no exception on division by zero); zero is unsigned (`+0`). -/
protected def div : Fl → Fl → Fl
  | fin a, fin b => if b = 0 then infSign a else fin (a / b)
  | nan, _ => nan
  | _, nan => nan
  | fin _, pinf => fin 0
  | fin _, ninf => fin 0
  | pinf, fin b => if b < 0 then ninf else pinf
  | ninf, fin b => if b < 0 then pinf else ninf
  | _, _ => nan

instance : Add Fl := ⟨Fl.add⟩
instance : Neg Fl := ⟨Fl.neg⟩
instance : Sub Fl := ⟨fun a b => Fl.add a (Fl.neg b)⟩
instance : Mul Fl := ⟨Fl.mul⟩
instance : Div Fl := ⟨Fl.div⟩

/-- `x ** n` for a literal natural exponent, by repeated multiplication. -/
protected def npow (x : Fl) : ℕ → Fl
  | 0 => 1
  | n + 1 => Fl.npow x n * x

instance : HPow Fl ℕ Fl := ⟨Fl.npow⟩

/-- `abs(x)`. -/
protected def abs : Fl → Fl
  | nan => nan
  | fin a => fin |a|
  | _ => pinf

/-- `np.sign(x)`. -/
def sign : Fl → Fl
  | nan => nan
  | ninf => fin (-1)
  | pinf => fin 1
  | fin a => fin (if 0 < a then 1 else if a < 0 then -1 else 0)

/-! ### Comparisons: false whenever an operand is NaN -/

/-- `x < y`. -/
protected def lt : Fl → Fl → Prop
  | fin a, fin b => a < b
  | ninf, fin _ => True
  | ninf, pinf => True
  | fin _, pinf => True
  | _, _ => False

/-- `x <= y`. -/
protected def le : Fl → Fl → Prop
  | fin a, fin b => a ≤ b
  | ninf, ninf => True
  | pinf, pinf => True
  | ninf, fin _ => True
  | ninf, pinf => True
  | fin _, pinf => True
  | _, _ => False

/-- Python's `x == y` on floats (NaN is not equal to itself). -/
def eqv (x y : Fl) : Prop := x ≠ nan ∧ x = y

instance : LT Fl := ⟨Fl.lt⟩
instance : LE Fl := ⟨Fl.le⟩

/-- `np.isnan`. -/
def isnan (x : Fl) : Prop := x = nan
/-- `np.isfinite`. -/
def isfinite (x : Fl) : Prop := ∃ r, x = fin r

/-- `np.maximum` (NaN if either argument is NaN). -/
def maximum : Fl → Fl → Fl
  | nan, _ => nan
  | _, nan => nan
  | fin a, fin b => fin (max a b)
  | pinf, _ => pinf
  | _, pinf => pinf
  | ninf, y => y
  | x, ninf => x

/-- `np.minimum` (NaN if either argument is NaN). -/
def minimum : Fl → Fl → Fl
  | nan, _ => nan
  | _, nan => nan
  | fin a, fin b => fin (min a b)
  | ninf, _ => ninf
  | _, ninf => ninf
  | pinf, y => y
  | x, pinf => x

/-- `np.clip(x, lo, hi) = minimum(maximum(x, lo), hi)`. -/
def clip (x lo hi : Fl) : Fl := minimum (maximum x lo) hi

/-- `np.where(c, a, b)`, elementwise. -/
def npwhere (c : Prop) (a b : Fl) : Fl := if c then a else b

/-! ### Elementary functions -/

/-- `np.sqrt`. -/
def sqrt : Fl → Fl
  | fin a => if a < 0 then nan else fin (Real.sqrt a)
  | pinf => pinf
  | _ => nan

/-- `np.exp`. -/
def exp : Fl → Fl
  | nan => nan
  | ninf => fin 0
  | fin a => fin (Real.exp a)
  | pinf => pinf

/-- `np.log`. -/
def log : Fl → Fl
  | fin a => if a < 0 then nan else if a = 0 then ninf else fin (Real.log a)
  | pinf => pinf
  | _ => nan

/-- `np.cos`. -/
def cos : Fl → Fl
  | fin a => fin (Real.cos a)
  | _ => nan

/-- `np.sin`. -/
def sin : Fl → Fl
  | fin a => fin (Real.sin a)
  | _ => nan

/-- `np.tan`. -/
def tan : Fl → Fl
  | fin a => if Real.cos a = 0 then pinf else fin (Real.tan a)
  | _ => nan

/-- `np.arccos`: NaN outside `[-1, 1]`. -/
def arccos : Fl → Fl
  | fin a => if a < -1 ∨ 1 < a then nan else fin (Real.arccos a)
  | _ => nan

/-- `np.arcsin`: NaN outside `[-1, 1]`. -/
def arcsin : Fl → Fl
  | fin a => if a < -1 ∨ 1 < a then nan else fin (Real.arcsin a)
  | _ => nan

/-- `np.arctan`. -/
def arctan : Fl → Fl
  | nan => nan
  | ninf => fin (-(π / 2))
  | fin a => fin (Real.arctan a)
  | pinf => fin (π / 2)

/-- `np.arctan2(y, x)`; zero is unsigned, so `arctan2(0, x) = π` for `x < 0`. -/
def arctan2 : Fl → Fl → Fl
  | fin y, fin x => fin (Complex.arg ⟨x, y⟩)
  | nan, _ => nan
  | _, nan => nan
  | fin y, ninf => fin (if y < 0 then -π else π)
  | fin _, pinf => fin 0
  | pinf, fin _ => fin (π / 2)
  | ninf, fin _ => fin (-(π / 2))
  | pinf, pinf => fin (π / 4)
  | pinf, ninf => fin (3 * π / 4)
  | ninf, pinf => fin (-(π / 4))
  | ninf, ninf => fin (-(3 * π / 4))

/-- `np.radians` / `np.deg2rad`. -/
def radians (x : Fl) : Fl := x * fin (π / 180)
/-- `np.degrees` / `np.rad2deg`. -/
def degrees (x : Fl) : Fl := x * fin (180 / π)

/-- `np.mod(x, m)` for a finite non-zero modulus (result has the sign of `m`). -/
def mod : Fl → Fl → Fl
  | fin a, fin m => if m = 0 then nan else fin (a - m * ⌊a / m⌋)
  | _, _ => nan

/-- `np.ceil`. -/
def ceil : Fl → Fl
  | fin a => fin (⌈a⌉ : ℤ)
  | x => x

/-- `np.floor`. -/
def floor : Fl → Fl
  | fin a => fin (⌊a⌋ : ℤ)
  | x => x

/-- `x ** y` with a float exponent (IEEE `pow`, numpy: NaN for a negative base and a
non-integer exponent). -/
def rpow (x y : Fl) : Fl :=
  if y = fin 0 then fin 1 else if x = fin 1 then fin 1 else
  match x, y with
  | nan, _ => nan
  | _, nan => nan
  | fin a, fin b =>
      if a = 0 then (if 0 < b then fin 0 else pinf)
      else if 0 < a then fin (a ^ b)
      else if ∃ n : ℤ, (n : ℝ) = b then fin (a ^ b) else nan
  | fin a, pinf => if |a| = 1 then fin 1 else if |a| < 1 then fin 0 else pinf
  | fin a, ninf => if |a| = 1 then fin 1 else if |a| < 1 then pinf else fin 0
  | pinf, fin b => if 0 < b then pinf else fin 0
  | pinf, pinf => pinf
  | pinf, ninf => fin 0
  | ninf, fin b =>
      if 0 < b then (if ∃ n : ℤ, ((2 * n + 1 : ℤ) : ℝ) = b then ninf else pinf) else fin 0
  | ninf, pinf => pinf
  | ninf, ninf => fin 0

end Fl
end
