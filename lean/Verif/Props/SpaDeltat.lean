import Verif.Model.Spa
import Mathlib.Tactic.IntervalCases

/-! # C114: `spa.calculate_deltat` -/

noncomputable section
open scoped Classical
namespace Pvlib.Props.SpaDeltat
open Fl Pvlib.Spa

/-! ### Specification: the published piecewise polynomials (NASA eclipse pages), as coefficient lists -/

/-- A polynomial in `(y - center) / scale`, constant coefficient first. -/
structure Piece where
  center : ℝ
  scale : ℝ
  coeffs : List ℝ

/-- Horner evaluation. -/
def horner (t : ℝ) : List ℝ → ℝ
  | [] => 0
  | c :: cs => c + t * horner t cs

/-- Value of a piece at the decimal year `y`. -/
def Piece.eval (p : Piece) (y : ℝ) : ℝ := horner ((y - p.center) / p.scale) p.coeffs

/-- The published table: each piece with the first year it no longer covers. -/
def table : List (ℝ × Piece) :=
  [(-500, ⟨1820, 100, [-20, 0, 32]⟩),
   (500, ⟨0, 100, [10583.6, -1014.41, 33.78311, -5.952053, -0.1798452, 0.022174192, 0.0090316521]⟩),
   (1600, ⟨1000, 100, [1574.2, -556.01, 71.23472, 0.319781, -0.8503463, -0.005050998, 0.0083572073]⟩),
   (1700, ⟨1600, 1, [120, -0.9808, -0.01532, 1 / 7129]⟩),
   (1800, ⟨1700, 1, [8.83, 0.1603, -0.0059285, 0.00013336, -1 / 1174000]⟩),
   (1860, ⟨1800, 1, [13.72, -0.332447, 0.0068612, 0.0041116, -0.00037436, 0.0000121272, -0.0000001699, 0.000000000875]⟩),
   (1900, ⟨1860, 1, [7.62, 0.5737, -0.251754, 0.01680668, -0.0004473624, 1 / 233174]⟩),
   (1920, ⟨1900, 1, [-2.79, 1.494119, -0.0598939, 0.0061966, -0.000197]⟩),
   (1941, ⟨1920, 1, [21.20, 0.84493, -0.076100, 0.0020936]⟩),
   (1961, ⟨1950, 1, [29.07, 0.407, -1 / 233, 1 / 2547]⟩),
   (1986, ⟨1975, 1, [45.45, 1.067, -1 / 260, -1 / 718]⟩),
   (2005, ⟨2000, 1, [63.86, 0.3345, -0.060374, 0.0017275, 0.000651814, 0.00002373599]⟩),
   (2050, ⟨2000, 1, [62.92, 0.32217, 0.005589]⟩),
   (2150, ⟨1820, 100, [-20 - 0.5628 * 330, 56.28, 32]⟩)]

/-- The piece after the last boundary. -/
def lastPiece : Piece := ⟨1820, 100, [-20, 0, 32]⟩

/-- The first piece whose upper boundary lies beyond the year. -/
def pieceFor (year : ℝ) : List (ℝ × Piece) → Piece
  | [] => lastPiece
  | (b, p) :: rest => if year < b then p else pieceFor year rest

private theorem leaf0 (year month : ℝ) (h2 : year < -500) :
    calculateDeltat (fin year) (fin month) =
      fin ((pieceFor year table).eval (year + (month - 1 / 2) / 12)) := by
  have hp : pieceFor year table = (table[0]'(by simp [table])).2 := by
    simp only [pieceFor, table, List.getElem_cons_succ, List.getElem_cons_zero, h2, if_true, if_false]
  rw [hp]
  unfold calculateDeltat
  dsimp only
  refine (npwhere_neg (by simp only [Fl.ofNat_eq, Fl.neg_fin, Fl.fin_le, Fl.fin_lt, not_and, not_lt, not_le] <;> intros <;> linarith) _ _).trans ?_
  refine (npwhere_neg (by simp only [Fl.ofNat_eq, Fl.neg_fin, Fl.fin_le, Fl.fin_lt, not_and, not_lt, not_le] <;> intros <;> linarith) _ _).trans ?_
  refine (npwhere_neg (by simp only [Fl.ofNat_eq, Fl.neg_fin, Fl.fin_le, Fl.fin_lt, not_and, not_lt, not_le] <;> intros <;> linarith) _ _).trans ?_
  refine (npwhere_neg (by simp only [Fl.ofNat_eq, Fl.neg_fin, Fl.fin_le, Fl.fin_lt, not_and, not_lt, not_le] <;> intros <;> linarith) _ _).trans ?_
  refine (npwhere_neg (by simp only [Fl.ofNat_eq, Fl.neg_fin, Fl.fin_le, Fl.fin_lt, not_and, not_lt, not_le] <;> intros <;> linarith) _ _).trans ?_
  refine (npwhere_neg (by simp only [Fl.ofNat_eq, Fl.neg_fin, Fl.fin_le, Fl.fin_lt, not_and, not_lt, not_le] <;> intros <;> linarith) _ _).trans ?_
  refine (npwhere_neg (by simp only [Fl.ofNat_eq, Fl.neg_fin, Fl.fin_le, Fl.fin_lt, not_and, not_lt, not_le] <;> intros <;> linarith) _ _).trans ?_
  refine (npwhere_neg (by simp only [Fl.ofNat_eq, Fl.neg_fin, Fl.fin_le, Fl.fin_lt, not_and, not_lt, not_le] <;> intros <;> linarith) _ _).trans ?_
  refine (npwhere_neg (by simp only [Fl.ofNat_eq, Fl.neg_fin, Fl.fin_le, Fl.fin_lt, not_and, not_lt, not_le] <;> intros <;> linarith) _ _).trans ?_
  refine (npwhere_neg (by simp only [Fl.ofNat_eq, Fl.neg_fin, Fl.fin_le, Fl.fin_lt, not_and, not_lt, not_le] <;> intros <;> linarith) _ _).trans ?_
  refine (npwhere_neg (by simp only [Fl.ofNat_eq, Fl.neg_fin, Fl.fin_le, Fl.fin_lt, not_and, not_lt, not_le] <;> intros <;> linarith) _ _).trans ?_
  refine (npwhere_neg (by simp only [Fl.ofNat_eq, Fl.neg_fin, Fl.fin_le, Fl.fin_lt, not_and, not_lt, not_le] <;> intros <;> linarith) _ _).trans ?_
  refine (npwhere_neg (by simp only [Fl.ofNat_eq, Fl.neg_fin, Fl.fin_le, Fl.fin_lt, not_and, not_lt, not_le] <;> intros <;> linarith) _ _).trans ?_
  refine (npwhere_neg (by simp only [Fl.ofNat_eq, Fl.neg_fin, Fl.fin_le, Fl.fin_lt, not_and, not_lt, not_le] <;> intros <;> linarith) _ _).trans ?_
  refine (npwhere_pos (by simp only [Fl.ofNat_eq, Fl.neg_fin, Fl.fin_le, Fl.fin_lt] <;> first | linarith | (constructor <;> linarith)) _ _).trans ?_
  simp only [Piece.eval, table, lastPiece, List.getElem_cons_succ, List.getElem_cons_zero, horner]
  simp only [Fl.ofNat_eq, Fl.ofScientific_eq, Fl.neg_fin, Fl.fin_sub, Fl.fin_add, Fl.fin_mul, Fl.fin_pow, Fl.fin_div, ne_eq, OfNat.ofNat_ne_zero, not_false_eq_true, Fl.fin_inj]
  ring

private theorem leaf1 (year month : ℝ) (h1 : -500 ≤ year) (h2 : year < 500) :
    calculateDeltat (fin year) (fin month) =
      fin ((pieceFor year table).eval (year + (month - 1 / 2) / 12)) := by
  have hp : pieceFor year table = (table[1]'(by simp [table])).2 := by
    simp only [pieceFor, table, List.getElem_cons_succ, List.getElem_cons_zero, not_lt.mpr (show (-500:ℝ) ≤ year by linarith), h2, if_true, if_false]
  rw [hp]
  unfold calculateDeltat
  dsimp only
  refine (npwhere_neg (by simp only [Fl.ofNat_eq, Fl.neg_fin, Fl.fin_le, Fl.fin_lt, not_and, not_lt, not_le] <;> intros <;> linarith) _ _).trans ?_
  refine (npwhere_neg (by simp only [Fl.ofNat_eq, Fl.neg_fin, Fl.fin_le, Fl.fin_lt, not_and, not_lt, not_le] <;> intros <;> linarith) _ _).trans ?_
  refine (npwhere_neg (by simp only [Fl.ofNat_eq, Fl.neg_fin, Fl.fin_le, Fl.fin_lt, not_and, not_lt, not_le] <;> intros <;> linarith) _ _).trans ?_
  refine (npwhere_neg (by simp only [Fl.ofNat_eq, Fl.neg_fin, Fl.fin_le, Fl.fin_lt, not_and, not_lt, not_le] <;> intros <;> linarith) _ _).trans ?_
  refine (npwhere_neg (by simp only [Fl.ofNat_eq, Fl.neg_fin, Fl.fin_le, Fl.fin_lt, not_and, not_lt, not_le] <;> intros <;> linarith) _ _).trans ?_
  refine (npwhere_neg (by simp only [Fl.ofNat_eq, Fl.neg_fin, Fl.fin_le, Fl.fin_lt, not_and, not_lt, not_le] <;> intros <;> linarith) _ _).trans ?_
  refine (npwhere_neg (by simp only [Fl.ofNat_eq, Fl.neg_fin, Fl.fin_le, Fl.fin_lt, not_and, not_lt, not_le] <;> intros <;> linarith) _ _).trans ?_
  refine (npwhere_neg (by simp only [Fl.ofNat_eq, Fl.neg_fin, Fl.fin_le, Fl.fin_lt, not_and, not_lt, not_le] <;> intros <;> linarith) _ _).trans ?_
  refine (npwhere_neg (by simp only [Fl.ofNat_eq, Fl.neg_fin, Fl.fin_le, Fl.fin_lt, not_and, not_lt, not_le] <;> intros <;> linarith) _ _).trans ?_
  refine (npwhere_neg (by simp only [Fl.ofNat_eq, Fl.neg_fin, Fl.fin_le, Fl.fin_lt, not_and, not_lt, not_le] <;> intros <;> linarith) _ _).trans ?_
  refine (npwhere_neg (by simp only [Fl.ofNat_eq, Fl.neg_fin, Fl.fin_le, Fl.fin_lt, not_and, not_lt, not_le] <;> intros <;> linarith) _ _).trans ?_
  refine (npwhere_neg (by simp only [Fl.ofNat_eq, Fl.neg_fin, Fl.fin_le, Fl.fin_lt, not_and, not_lt, not_le] <;> intros <;> linarith) _ _).trans ?_
  refine (npwhere_neg (by simp only [Fl.ofNat_eq, Fl.neg_fin, Fl.fin_le, Fl.fin_lt, not_and, not_lt, not_le] <;> intros <;> linarith) _ _).trans ?_
  refine (npwhere_pos (by simp only [Fl.ofNat_eq, Fl.neg_fin, Fl.fin_le, Fl.fin_lt] <;> first | linarith | (constructor <;> linarith)) _ _).trans ?_
  simp only [Piece.eval, table, lastPiece, List.getElem_cons_succ, List.getElem_cons_zero, horner]
  simp only [Fl.ofNat_eq, Fl.ofScientific_eq, Fl.neg_fin, Fl.fin_sub, Fl.fin_add, Fl.fin_mul, Fl.fin_pow, Fl.fin_div, ne_eq, OfNat.ofNat_ne_zero, not_false_eq_true, Fl.fin_inj]
  ring

private theorem leaf2 (year month : ℝ) (h1 : 500 ≤ year) (h2 : year < 1600) :
    calculateDeltat (fin year) (fin month) =
      fin ((pieceFor year table).eval (year + (month - 1 / 2) / 12)) := by
  have hp : pieceFor year table = (table[2]'(by simp [table])).2 := by
    simp only [pieceFor, table, List.getElem_cons_succ, List.getElem_cons_zero, not_lt.mpr (show (-500:ℝ) ≤ year by linarith), not_lt.mpr (show (500:ℝ) ≤ year by linarith), h2, if_true, if_false]
  rw [hp]
  unfold calculateDeltat
  dsimp only
  refine (npwhere_neg (by simp only [Fl.ofNat_eq, Fl.neg_fin, Fl.fin_le, Fl.fin_lt, not_and, not_lt, not_le] <;> intros <;> linarith) _ _).trans ?_
  refine (npwhere_neg (by simp only [Fl.ofNat_eq, Fl.neg_fin, Fl.fin_le, Fl.fin_lt, not_and, not_lt, not_le] <;> intros <;> linarith) _ _).trans ?_
  refine (npwhere_neg (by simp only [Fl.ofNat_eq, Fl.neg_fin, Fl.fin_le, Fl.fin_lt, not_and, not_lt, not_le] <;> intros <;> linarith) _ _).trans ?_
  refine (npwhere_neg (by simp only [Fl.ofNat_eq, Fl.neg_fin, Fl.fin_le, Fl.fin_lt, not_and, not_lt, not_le] <;> intros <;> linarith) _ _).trans ?_
  refine (npwhere_neg (by simp only [Fl.ofNat_eq, Fl.neg_fin, Fl.fin_le, Fl.fin_lt, not_and, not_lt, not_le] <;> intros <;> linarith) _ _).trans ?_
  refine (npwhere_neg (by simp only [Fl.ofNat_eq, Fl.neg_fin, Fl.fin_le, Fl.fin_lt, not_and, not_lt, not_le] <;> intros <;> linarith) _ _).trans ?_
  refine (npwhere_neg (by simp only [Fl.ofNat_eq, Fl.neg_fin, Fl.fin_le, Fl.fin_lt, not_and, not_lt, not_le] <;> intros <;> linarith) _ _).trans ?_
  refine (npwhere_neg (by simp only [Fl.ofNat_eq, Fl.neg_fin, Fl.fin_le, Fl.fin_lt, not_and, not_lt, not_le] <;> intros <;> linarith) _ _).trans ?_
  refine (npwhere_neg (by simp only [Fl.ofNat_eq, Fl.neg_fin, Fl.fin_le, Fl.fin_lt, not_and, not_lt, not_le] <;> intros <;> linarith) _ _).trans ?_
  refine (npwhere_neg (by simp only [Fl.ofNat_eq, Fl.neg_fin, Fl.fin_le, Fl.fin_lt, not_and, not_lt, not_le] <;> intros <;> linarith) _ _).trans ?_
  refine (npwhere_neg (by simp only [Fl.ofNat_eq, Fl.neg_fin, Fl.fin_le, Fl.fin_lt, not_and, not_lt, not_le] <;> intros <;> linarith) _ _).trans ?_
  refine (npwhere_neg (by simp only [Fl.ofNat_eq, Fl.neg_fin, Fl.fin_le, Fl.fin_lt, not_and, not_lt, not_le] <;> intros <;> linarith) _ _).trans ?_
  refine (npwhere_pos (by simp only [Fl.ofNat_eq, Fl.neg_fin, Fl.fin_le, Fl.fin_lt] <;> first | linarith | (constructor <;> linarith)) _ _).trans ?_
  simp only [Piece.eval, table, lastPiece, List.getElem_cons_succ, List.getElem_cons_zero, horner]
  simp only [Fl.ofNat_eq, Fl.ofScientific_eq, Fl.neg_fin, Fl.fin_sub, Fl.fin_add, Fl.fin_mul, Fl.fin_pow, Fl.fin_div, ne_eq, OfNat.ofNat_ne_zero, not_false_eq_true, Fl.fin_inj]
  ring

private theorem leaf3 (year month : ℝ) (h1 : 1600 ≤ year) (h2 : year < 1700) :
    calculateDeltat (fin year) (fin month) =
      fin ((pieceFor year table).eval (year + (month - 1 / 2) / 12)) := by
  have hp : pieceFor year table = (table[3]'(by simp [table])).2 := by
    simp only [pieceFor, table, List.getElem_cons_succ, List.getElem_cons_zero, not_lt.mpr (show (-500:ℝ) ≤ year by linarith), not_lt.mpr (show (500:ℝ) ≤ year by linarith), not_lt.mpr (show (1600:ℝ) ≤ year by linarith), h2, if_true, if_false]
  rw [hp]
  unfold calculateDeltat
  dsimp only
  refine (npwhere_neg (by simp only [Fl.ofNat_eq, Fl.neg_fin, Fl.fin_le, Fl.fin_lt, not_and, not_lt, not_le] <;> intros <;> linarith) _ _).trans ?_
  refine (npwhere_neg (by simp only [Fl.ofNat_eq, Fl.neg_fin, Fl.fin_le, Fl.fin_lt, not_and, not_lt, not_le] <;> intros <;> linarith) _ _).trans ?_
  refine (npwhere_neg (by simp only [Fl.ofNat_eq, Fl.neg_fin, Fl.fin_le, Fl.fin_lt, not_and, not_lt, not_le] <;> intros <;> linarith) _ _).trans ?_
  refine (npwhere_neg (by simp only [Fl.ofNat_eq, Fl.neg_fin, Fl.fin_le, Fl.fin_lt, not_and, not_lt, not_le] <;> intros <;> linarith) _ _).trans ?_
  refine (npwhere_neg (by simp only [Fl.ofNat_eq, Fl.neg_fin, Fl.fin_le, Fl.fin_lt, not_and, not_lt, not_le] <;> intros <;> linarith) _ _).trans ?_
  refine (npwhere_neg (by simp only [Fl.ofNat_eq, Fl.neg_fin, Fl.fin_le, Fl.fin_lt, not_and, not_lt, not_le] <;> intros <;> linarith) _ _).trans ?_
  refine (npwhere_neg (by simp only [Fl.ofNat_eq, Fl.neg_fin, Fl.fin_le, Fl.fin_lt, not_and, not_lt, not_le] <;> intros <;> linarith) _ _).trans ?_
  refine (npwhere_neg (by simp only [Fl.ofNat_eq, Fl.neg_fin, Fl.fin_le, Fl.fin_lt, not_and, not_lt, not_le] <;> intros <;> linarith) _ _).trans ?_
  refine (npwhere_neg (by simp only [Fl.ofNat_eq, Fl.neg_fin, Fl.fin_le, Fl.fin_lt, not_and, not_lt, not_le] <;> intros <;> linarith) _ _).trans ?_
  refine (npwhere_neg (by simp only [Fl.ofNat_eq, Fl.neg_fin, Fl.fin_le, Fl.fin_lt, not_and, not_lt, not_le] <;> intros <;> linarith) _ _).trans ?_
  refine (npwhere_neg (by simp only [Fl.ofNat_eq, Fl.neg_fin, Fl.fin_le, Fl.fin_lt, not_and, not_lt, not_le] <;> intros <;> linarith) _ _).trans ?_
  refine (npwhere_pos (by simp only [Fl.ofNat_eq, Fl.neg_fin, Fl.fin_le, Fl.fin_lt] <;> first | linarith | (constructor <;> linarith)) _ _).trans ?_
  simp only [Piece.eval, table, lastPiece, List.getElem_cons_succ, List.getElem_cons_zero, horner]
  simp only [Fl.ofNat_eq, Fl.ofScientific_eq, Fl.neg_fin, Fl.fin_sub, Fl.fin_add, Fl.fin_mul, Fl.fin_pow, Fl.fin_div, ne_eq, OfNat.ofNat_ne_zero, not_false_eq_true, Fl.fin_inj]
  ring

private theorem leaf4 (year month : ℝ) (h1 : 1700 ≤ year) (h2 : year < 1800) :
    calculateDeltat (fin year) (fin month) =
      fin ((pieceFor year table).eval (year + (month - 1 / 2) / 12)) := by
  have hp : pieceFor year table = (table[4]'(by simp [table])).2 := by
    simp only [pieceFor, table, List.getElem_cons_succ, List.getElem_cons_zero, not_lt.mpr (show (-500:ℝ) ≤ year by linarith), not_lt.mpr (show (500:ℝ) ≤ year by linarith), not_lt.mpr (show (1600:ℝ) ≤ year by linarith), not_lt.mpr (show (1700:ℝ) ≤ year by linarith), h2, if_true, if_false]
  rw [hp]
  unfold calculateDeltat
  dsimp only
  refine (npwhere_neg (by simp only [Fl.ofNat_eq, Fl.neg_fin, Fl.fin_le, Fl.fin_lt, not_and, not_lt, not_le] <;> intros <;> linarith) _ _).trans ?_
  refine (npwhere_neg (by simp only [Fl.ofNat_eq, Fl.neg_fin, Fl.fin_le, Fl.fin_lt, not_and, not_lt, not_le] <;> intros <;> linarith) _ _).trans ?_
  refine (npwhere_neg (by simp only [Fl.ofNat_eq, Fl.neg_fin, Fl.fin_le, Fl.fin_lt, not_and, not_lt, not_le] <;> intros <;> linarith) _ _).trans ?_
  refine (npwhere_neg (by simp only [Fl.ofNat_eq, Fl.neg_fin, Fl.fin_le, Fl.fin_lt, not_and, not_lt, not_le] <;> intros <;> linarith) _ _).trans ?_
  refine (npwhere_neg (by simp only [Fl.ofNat_eq, Fl.neg_fin, Fl.fin_le, Fl.fin_lt, not_and, not_lt, not_le] <;> intros <;> linarith) _ _).trans ?_
  refine (npwhere_neg (by simp only [Fl.ofNat_eq, Fl.neg_fin, Fl.fin_le, Fl.fin_lt, not_and, not_lt, not_le] <;> intros <;> linarith) _ _).trans ?_
  refine (npwhere_neg (by simp only [Fl.ofNat_eq, Fl.neg_fin, Fl.fin_le, Fl.fin_lt, not_and, not_lt, not_le] <;> intros <;> linarith) _ _).trans ?_
  refine (npwhere_neg (by simp only [Fl.ofNat_eq, Fl.neg_fin, Fl.fin_le, Fl.fin_lt, not_and, not_lt, not_le] <;> intros <;> linarith) _ _).trans ?_
  refine (npwhere_neg (by simp only [Fl.ofNat_eq, Fl.neg_fin, Fl.fin_le, Fl.fin_lt, not_and, not_lt, not_le] <;> intros <;> linarith) _ _).trans ?_
  refine (npwhere_neg (by simp only [Fl.ofNat_eq, Fl.neg_fin, Fl.fin_le, Fl.fin_lt, not_and, not_lt, not_le] <;> intros <;> linarith) _ _).trans ?_
  refine (npwhere_pos (by simp only [Fl.ofNat_eq, Fl.neg_fin, Fl.fin_le, Fl.fin_lt] <;> first | linarith | (constructor <;> linarith)) _ _).trans ?_
  simp only [Piece.eval, table, lastPiece, List.getElem_cons_succ, List.getElem_cons_zero, horner]
  simp only [Fl.ofNat_eq, Fl.ofScientific_eq, Fl.neg_fin, Fl.fin_sub, Fl.fin_add, Fl.fin_mul, Fl.fin_pow, Fl.fin_div, ne_eq, OfNat.ofNat_ne_zero, not_false_eq_true, Fl.fin_inj]
  ring

private theorem leaf5 (year month : ℝ) (h1 : 1800 ≤ year) (h2 : year < 1860) :
    calculateDeltat (fin year) (fin month) =
      fin ((pieceFor year table).eval (year + (month - 1 / 2) / 12)) := by
  have hp : pieceFor year table = (table[5]'(by simp [table])).2 := by
    simp only [pieceFor, table, List.getElem_cons_succ, List.getElem_cons_zero, not_lt.mpr (show (-500:ℝ) ≤ year by linarith), not_lt.mpr (show (500:ℝ) ≤ year by linarith), not_lt.mpr (show (1600:ℝ) ≤ year by linarith), not_lt.mpr (show (1700:ℝ) ≤ year by linarith), not_lt.mpr (show (1800:ℝ) ≤ year by linarith), h2, if_true, if_false]
  rw [hp]
  unfold calculateDeltat
  dsimp only
  refine (npwhere_neg (by simp only [Fl.ofNat_eq, Fl.neg_fin, Fl.fin_le, Fl.fin_lt, not_and, not_lt, not_le] <;> intros <;> linarith) _ _).trans ?_
  refine (npwhere_neg (by simp only [Fl.ofNat_eq, Fl.neg_fin, Fl.fin_le, Fl.fin_lt, not_and, not_lt, not_le] <;> intros <;> linarith) _ _).trans ?_
  refine (npwhere_neg (by simp only [Fl.ofNat_eq, Fl.neg_fin, Fl.fin_le, Fl.fin_lt, not_and, not_lt, not_le] <;> intros <;> linarith) _ _).trans ?_
  refine (npwhere_neg (by simp only [Fl.ofNat_eq, Fl.neg_fin, Fl.fin_le, Fl.fin_lt, not_and, not_lt, not_le] <;> intros <;> linarith) _ _).trans ?_
  refine (npwhere_neg (by simp only [Fl.ofNat_eq, Fl.neg_fin, Fl.fin_le, Fl.fin_lt, not_and, not_lt, not_le] <;> intros <;> linarith) _ _).trans ?_
  refine (npwhere_neg (by simp only [Fl.ofNat_eq, Fl.neg_fin, Fl.fin_le, Fl.fin_lt, not_and, not_lt, not_le] <;> intros <;> linarith) _ _).trans ?_
  refine (npwhere_neg (by simp only [Fl.ofNat_eq, Fl.neg_fin, Fl.fin_le, Fl.fin_lt, not_and, not_lt, not_le] <;> intros <;> linarith) _ _).trans ?_
  refine (npwhere_neg (by simp only [Fl.ofNat_eq, Fl.neg_fin, Fl.fin_le, Fl.fin_lt, not_and, not_lt, not_le] <;> intros <;> linarith) _ _).trans ?_
  refine (npwhere_neg (by simp only [Fl.ofNat_eq, Fl.neg_fin, Fl.fin_le, Fl.fin_lt, not_and, not_lt, not_le] <;> intros <;> linarith) _ _).trans ?_
  refine (npwhere_pos (by simp only [Fl.ofNat_eq, Fl.neg_fin, Fl.fin_le, Fl.fin_lt] <;> first | linarith | (constructor <;> linarith)) _ _).trans ?_
  simp only [Piece.eval, table, lastPiece, List.getElem_cons_succ, List.getElem_cons_zero, horner]
  simp only [Fl.ofNat_eq, Fl.ofScientific_eq, Fl.neg_fin, Fl.fin_sub, Fl.fin_add, Fl.fin_mul, Fl.fin_pow, Fl.fin_div, ne_eq, OfNat.ofNat_ne_zero, not_false_eq_true, Fl.fin_inj]
  ring

private theorem leaf6 (year month : ℝ) (h1 : 1860 ≤ year) (h2 : year < 1900) :
    calculateDeltat (fin year) (fin month) =
      fin ((pieceFor year table).eval (year + (month - 1 / 2) / 12)) := by
  have hp : pieceFor year table = (table[6]'(by simp [table])).2 := by
    simp only [pieceFor, table, List.getElem_cons_succ, List.getElem_cons_zero, not_lt.mpr (show (-500:ℝ) ≤ year by linarith), not_lt.mpr (show (500:ℝ) ≤ year by linarith), not_lt.mpr (show (1600:ℝ) ≤ year by linarith), not_lt.mpr (show (1700:ℝ) ≤ year by linarith), not_lt.mpr (show (1800:ℝ) ≤ year by linarith), not_lt.mpr (show (1860:ℝ) ≤ year by linarith), h2, if_true, if_false]
  rw [hp]
  unfold calculateDeltat
  dsimp only
  refine (npwhere_neg (by simp only [Fl.ofNat_eq, Fl.neg_fin, Fl.fin_le, Fl.fin_lt, not_and, not_lt, not_le] <;> intros <;> linarith) _ _).trans ?_
  refine (npwhere_neg (by simp only [Fl.ofNat_eq, Fl.neg_fin, Fl.fin_le, Fl.fin_lt, not_and, not_lt, not_le] <;> intros <;> linarith) _ _).trans ?_
  refine (npwhere_neg (by simp only [Fl.ofNat_eq, Fl.neg_fin, Fl.fin_le, Fl.fin_lt, not_and, not_lt, not_le] <;> intros <;> linarith) _ _).trans ?_
  refine (npwhere_neg (by simp only [Fl.ofNat_eq, Fl.neg_fin, Fl.fin_le, Fl.fin_lt, not_and, not_lt, not_le] <;> intros <;> linarith) _ _).trans ?_
  refine (npwhere_neg (by simp only [Fl.ofNat_eq, Fl.neg_fin, Fl.fin_le, Fl.fin_lt, not_and, not_lt, not_le] <;> intros <;> linarith) _ _).trans ?_
  refine (npwhere_neg (by simp only [Fl.ofNat_eq, Fl.neg_fin, Fl.fin_le, Fl.fin_lt, not_and, not_lt, not_le] <;> intros <;> linarith) _ _).trans ?_
  refine (npwhere_neg (by simp only [Fl.ofNat_eq, Fl.neg_fin, Fl.fin_le, Fl.fin_lt, not_and, not_lt, not_le] <;> intros <;> linarith) _ _).trans ?_
  refine (npwhere_neg (by simp only [Fl.ofNat_eq, Fl.neg_fin, Fl.fin_le, Fl.fin_lt, not_and, not_lt, not_le] <;> intros <;> linarith) _ _).trans ?_
  refine (npwhere_pos (by simp only [Fl.ofNat_eq, Fl.neg_fin, Fl.fin_le, Fl.fin_lt] <;> first | linarith | (constructor <;> linarith)) _ _).trans ?_
  simp only [Piece.eval, table, lastPiece, List.getElem_cons_succ, List.getElem_cons_zero, horner]
  simp only [Fl.ofNat_eq, Fl.ofScientific_eq, Fl.neg_fin, Fl.fin_sub, Fl.fin_add, Fl.fin_mul, Fl.fin_pow, Fl.fin_div, ne_eq, OfNat.ofNat_ne_zero, not_false_eq_true, Fl.fin_inj]
  ring

private theorem leaf7 (year month : ℝ) (h1 : 1900 ≤ year) (h2 : year < 1920) :
    calculateDeltat (fin year) (fin month) =
      fin ((pieceFor year table).eval (year + (month - 1 / 2) / 12)) := by
  have hp : pieceFor year table = (table[7]'(by simp [table])).2 := by
    simp only [pieceFor, table, List.getElem_cons_succ, List.getElem_cons_zero, not_lt.mpr (show (-500:ℝ) ≤ year by linarith), not_lt.mpr (show (500:ℝ) ≤ year by linarith), not_lt.mpr (show (1600:ℝ) ≤ year by linarith), not_lt.mpr (show (1700:ℝ) ≤ year by linarith), not_lt.mpr (show (1800:ℝ) ≤ year by linarith), not_lt.mpr (show (1860:ℝ) ≤ year by linarith), not_lt.mpr (show (1900:ℝ) ≤ year by linarith), h2, if_true, if_false]
  rw [hp]
  unfold calculateDeltat
  dsimp only
  refine (npwhere_neg (by simp only [Fl.ofNat_eq, Fl.neg_fin, Fl.fin_le, Fl.fin_lt, not_and, not_lt, not_le] <;> intros <;> linarith) _ _).trans ?_
  refine (npwhere_neg (by simp only [Fl.ofNat_eq, Fl.neg_fin, Fl.fin_le, Fl.fin_lt, not_and, not_lt, not_le] <;> intros <;> linarith) _ _).trans ?_
  refine (npwhere_neg (by simp only [Fl.ofNat_eq, Fl.neg_fin, Fl.fin_le, Fl.fin_lt, not_and, not_lt, not_le] <;> intros <;> linarith) _ _).trans ?_
  refine (npwhere_neg (by simp only [Fl.ofNat_eq, Fl.neg_fin, Fl.fin_le, Fl.fin_lt, not_and, not_lt, not_le] <;> intros <;> linarith) _ _).trans ?_
  refine (npwhere_neg (by simp only [Fl.ofNat_eq, Fl.neg_fin, Fl.fin_le, Fl.fin_lt, not_and, not_lt, not_le] <;> intros <;> linarith) _ _).trans ?_
  refine (npwhere_neg (by simp only [Fl.ofNat_eq, Fl.neg_fin, Fl.fin_le, Fl.fin_lt, not_and, not_lt, not_le] <;> intros <;> linarith) _ _).trans ?_
  refine (npwhere_neg (by simp only [Fl.ofNat_eq, Fl.neg_fin, Fl.fin_le, Fl.fin_lt, not_and, not_lt, not_le] <;> intros <;> linarith) _ _).trans ?_
  refine (npwhere_pos (by simp only [Fl.ofNat_eq, Fl.neg_fin, Fl.fin_le, Fl.fin_lt] <;> first | linarith | (constructor <;> linarith)) _ _).trans ?_
  simp only [Piece.eval, table, lastPiece, List.getElem_cons_succ, List.getElem_cons_zero, horner]
  simp only [Fl.ofNat_eq, Fl.ofScientific_eq, Fl.neg_fin, Fl.fin_sub, Fl.fin_add, Fl.fin_mul, Fl.fin_pow, Fl.fin_div, ne_eq, OfNat.ofNat_ne_zero, not_false_eq_true, Fl.fin_inj]
  ring

private theorem leaf8 (year month : ℝ) (h1 : 1920 ≤ year) (h2 : year < 1941) :
    calculateDeltat (fin year) (fin month) =
      fin ((pieceFor year table).eval (year + (month - 1 / 2) / 12)) := by
  have hp : pieceFor year table = (table[8]'(by simp [table])).2 := by
    simp only [pieceFor, table, List.getElem_cons_succ, List.getElem_cons_zero, not_lt.mpr (show (-500:ℝ) ≤ year by linarith), not_lt.mpr (show (500:ℝ) ≤ year by linarith), not_lt.mpr (show (1600:ℝ) ≤ year by linarith), not_lt.mpr (show (1700:ℝ) ≤ year by linarith), not_lt.mpr (show (1800:ℝ) ≤ year by linarith), not_lt.mpr (show (1860:ℝ) ≤ year by linarith), not_lt.mpr (show (1900:ℝ) ≤ year by linarith), not_lt.mpr (show (1920:ℝ) ≤ year by linarith), h2, if_true, if_false]
  rw [hp]
  unfold calculateDeltat
  dsimp only
  refine (npwhere_neg (by simp only [Fl.ofNat_eq, Fl.neg_fin, Fl.fin_le, Fl.fin_lt, not_and, not_lt, not_le] <;> intros <;> linarith) _ _).trans ?_
  refine (npwhere_neg (by simp only [Fl.ofNat_eq, Fl.neg_fin, Fl.fin_le, Fl.fin_lt, not_and, not_lt, not_le] <;> intros <;> linarith) _ _).trans ?_
  refine (npwhere_neg (by simp only [Fl.ofNat_eq, Fl.neg_fin, Fl.fin_le, Fl.fin_lt, not_and, not_lt, not_le] <;> intros <;> linarith) _ _).trans ?_
  refine (npwhere_neg (by simp only [Fl.ofNat_eq, Fl.neg_fin, Fl.fin_le, Fl.fin_lt, not_and, not_lt, not_le] <;> intros <;> linarith) _ _).trans ?_
  refine (npwhere_neg (by simp only [Fl.ofNat_eq, Fl.neg_fin, Fl.fin_le, Fl.fin_lt, not_and, not_lt, not_le] <;> intros <;> linarith) _ _).trans ?_
  refine (npwhere_neg (by simp only [Fl.ofNat_eq, Fl.neg_fin, Fl.fin_le, Fl.fin_lt, not_and, not_lt, not_le] <;> intros <;> linarith) _ _).trans ?_
  refine (npwhere_pos (by simp only [Fl.ofNat_eq, Fl.neg_fin, Fl.fin_le, Fl.fin_lt] <;> first | linarith | (constructor <;> linarith)) _ _).trans ?_
  simp only [Piece.eval, table, lastPiece, List.getElem_cons_succ, List.getElem_cons_zero, horner]
  simp only [Fl.ofNat_eq, Fl.ofScientific_eq, Fl.neg_fin, Fl.fin_sub, Fl.fin_add, Fl.fin_mul, Fl.fin_pow, Fl.fin_div, ne_eq, OfNat.ofNat_ne_zero, not_false_eq_true, Fl.fin_inj]
  ring

private theorem leaf9 (year month : ℝ) (h1 : 1941 ≤ year) (h2 : year < 1961) :
    calculateDeltat (fin year) (fin month) =
      fin ((pieceFor year table).eval (year + (month - 1 / 2) / 12)) := by
  have hp : pieceFor year table = (table[9]'(by simp [table])).2 := by
    simp only [pieceFor, table, List.getElem_cons_succ, List.getElem_cons_zero, not_lt.mpr (show (-500:ℝ) ≤ year by linarith), not_lt.mpr (show (500:ℝ) ≤ year by linarith), not_lt.mpr (show (1600:ℝ) ≤ year by linarith), not_lt.mpr (show (1700:ℝ) ≤ year by linarith), not_lt.mpr (show (1800:ℝ) ≤ year by linarith), not_lt.mpr (show (1860:ℝ) ≤ year by linarith), not_lt.mpr (show (1900:ℝ) ≤ year by linarith), not_lt.mpr (show (1920:ℝ) ≤ year by linarith), not_lt.mpr (show (1941:ℝ) ≤ year by linarith), h2, if_true, if_false]
  rw [hp]
  unfold calculateDeltat
  dsimp only
  refine (npwhere_neg (by simp only [Fl.ofNat_eq, Fl.neg_fin, Fl.fin_le, Fl.fin_lt, not_and, not_lt, not_le] <;> intros <;> linarith) _ _).trans ?_
  refine (npwhere_neg (by simp only [Fl.ofNat_eq, Fl.neg_fin, Fl.fin_le, Fl.fin_lt, not_and, not_lt, not_le] <;> intros <;> linarith) _ _).trans ?_
  refine (npwhere_neg (by simp only [Fl.ofNat_eq, Fl.neg_fin, Fl.fin_le, Fl.fin_lt, not_and, not_lt, not_le] <;> intros <;> linarith) _ _).trans ?_
  refine (npwhere_neg (by simp only [Fl.ofNat_eq, Fl.neg_fin, Fl.fin_le, Fl.fin_lt, not_and, not_lt, not_le] <;> intros <;> linarith) _ _).trans ?_
  refine (npwhere_neg (by simp only [Fl.ofNat_eq, Fl.neg_fin, Fl.fin_le, Fl.fin_lt, not_and, not_lt, not_le] <;> intros <;> linarith) _ _).trans ?_
  refine (npwhere_pos (by simp only [Fl.ofNat_eq, Fl.neg_fin, Fl.fin_le, Fl.fin_lt] <;> first | linarith | (constructor <;> linarith)) _ _).trans ?_
  simp only [Piece.eval, table, lastPiece, List.getElem_cons_succ, List.getElem_cons_zero, horner]
  simp only [Fl.ofNat_eq, Fl.ofScientific_eq, Fl.neg_fin, Fl.fin_sub, Fl.fin_add, Fl.fin_mul, Fl.fin_pow, Fl.fin_div, ne_eq, OfNat.ofNat_ne_zero, not_false_eq_true, Fl.fin_inj]
  ring

private theorem leaf10 (year month : ℝ) (h1 : 1961 ≤ year) (h2 : year < 1986) :
    calculateDeltat (fin year) (fin month) =
      fin ((pieceFor year table).eval (year + (month - 1 / 2) / 12)) := by
  have hp : pieceFor year table = (table[10]'(by simp [table])).2 := by
    simp only [pieceFor, table, List.getElem_cons_succ, List.getElem_cons_zero, not_lt.mpr (show (-500:ℝ) ≤ year by linarith), not_lt.mpr (show (500:ℝ) ≤ year by linarith), not_lt.mpr (show (1600:ℝ) ≤ year by linarith), not_lt.mpr (show (1700:ℝ) ≤ year by linarith), not_lt.mpr (show (1800:ℝ) ≤ year by linarith), not_lt.mpr (show (1860:ℝ) ≤ year by linarith), not_lt.mpr (show (1900:ℝ) ≤ year by linarith), not_lt.mpr (show (1920:ℝ) ≤ year by linarith), not_lt.mpr (show (1941:ℝ) ≤ year by linarith), not_lt.mpr (show (1961:ℝ) ≤ year by linarith), h2, if_true, if_false]
  rw [hp]
  unfold calculateDeltat
  dsimp only
  refine (npwhere_neg (by simp only [Fl.ofNat_eq, Fl.neg_fin, Fl.fin_le, Fl.fin_lt, not_and, not_lt, not_le] <;> intros <;> linarith) _ _).trans ?_
  refine (npwhere_neg (by simp only [Fl.ofNat_eq, Fl.neg_fin, Fl.fin_le, Fl.fin_lt, not_and, not_lt, not_le] <;> intros <;> linarith) _ _).trans ?_
  refine (npwhere_neg (by simp only [Fl.ofNat_eq, Fl.neg_fin, Fl.fin_le, Fl.fin_lt, not_and, not_lt, not_le] <;> intros <;> linarith) _ _).trans ?_
  refine (npwhere_neg (by simp only [Fl.ofNat_eq, Fl.neg_fin, Fl.fin_le, Fl.fin_lt, not_and, not_lt, not_le] <;> intros <;> linarith) _ _).trans ?_
  refine (npwhere_pos (by simp only [Fl.ofNat_eq, Fl.neg_fin, Fl.fin_le, Fl.fin_lt] <;> first | linarith | (constructor <;> linarith)) _ _).trans ?_
  simp only [Piece.eval, table, lastPiece, List.getElem_cons_succ, List.getElem_cons_zero, horner]
  simp only [Fl.ofNat_eq, Fl.ofScientific_eq, Fl.neg_fin, Fl.fin_sub, Fl.fin_add, Fl.fin_mul, Fl.fin_pow, Fl.fin_div, ne_eq, OfNat.ofNat_ne_zero, not_false_eq_true, Fl.fin_inj]
  ring

private theorem leaf11 (year month : ℝ) (h1 : 1986 ≤ year) (h2 : year < 2005) :
    calculateDeltat (fin year) (fin month) =
      fin ((pieceFor year table).eval (year + (month - 1 / 2) / 12)) := by
  have hp : pieceFor year table = (table[11]'(by simp [table])).2 := by
    simp only [pieceFor, table, List.getElem_cons_succ, List.getElem_cons_zero, not_lt.mpr (show (-500:ℝ) ≤ year by linarith), not_lt.mpr (show (500:ℝ) ≤ year by linarith), not_lt.mpr (show (1600:ℝ) ≤ year by linarith), not_lt.mpr (show (1700:ℝ) ≤ year by linarith), not_lt.mpr (show (1800:ℝ) ≤ year by linarith), not_lt.mpr (show (1860:ℝ) ≤ year by linarith), not_lt.mpr (show (1900:ℝ) ≤ year by linarith), not_lt.mpr (show (1920:ℝ) ≤ year by linarith), not_lt.mpr (show (1941:ℝ) ≤ year by linarith), not_lt.mpr (show (1961:ℝ) ≤ year by linarith), not_lt.mpr (show (1986:ℝ) ≤ year by linarith), h2, if_true, if_false]
  rw [hp]
  unfold calculateDeltat
  dsimp only
  refine (npwhere_neg (by simp only [Fl.ofNat_eq, Fl.neg_fin, Fl.fin_le, Fl.fin_lt, not_and, not_lt, not_le] <;> intros <;> linarith) _ _).trans ?_
  refine (npwhere_neg (by simp only [Fl.ofNat_eq, Fl.neg_fin, Fl.fin_le, Fl.fin_lt, not_and, not_lt, not_le] <;> intros <;> linarith) _ _).trans ?_
  refine (npwhere_neg (by simp only [Fl.ofNat_eq, Fl.neg_fin, Fl.fin_le, Fl.fin_lt, not_and, not_lt, not_le] <;> intros <;> linarith) _ _).trans ?_
  refine (npwhere_pos (by simp only [Fl.ofNat_eq, Fl.neg_fin, Fl.fin_le, Fl.fin_lt] <;> first | linarith | (constructor <;> linarith)) _ _).trans ?_
  simp only [Piece.eval, table, lastPiece, List.getElem_cons_succ, List.getElem_cons_zero, horner]
  simp only [Fl.ofNat_eq, Fl.ofScientific_eq, Fl.neg_fin, Fl.fin_sub, Fl.fin_add, Fl.fin_mul, Fl.fin_pow, Fl.fin_div, ne_eq, OfNat.ofNat_ne_zero, not_false_eq_true, Fl.fin_inj]
  ring

private theorem leaf12 (year month : ℝ) (h1 : 2005 ≤ year) (h2 : year < 2050) :
    calculateDeltat (fin year) (fin month) =
      fin ((pieceFor year table).eval (year + (month - 1 / 2) / 12)) := by
  have hp : pieceFor year table = (table[12]'(by simp [table])).2 := by
    simp only [pieceFor, table, List.getElem_cons_succ, List.getElem_cons_zero, not_lt.mpr (show (-500:ℝ) ≤ year by linarith), not_lt.mpr (show (500:ℝ) ≤ year by linarith), not_lt.mpr (show (1600:ℝ) ≤ year by linarith), not_lt.mpr (show (1700:ℝ) ≤ year by linarith), not_lt.mpr (show (1800:ℝ) ≤ year by linarith), not_lt.mpr (show (1860:ℝ) ≤ year by linarith), not_lt.mpr (show (1900:ℝ) ≤ year by linarith), not_lt.mpr (show (1920:ℝ) ≤ year by linarith), not_lt.mpr (show (1941:ℝ) ≤ year by linarith), not_lt.mpr (show (1961:ℝ) ≤ year by linarith), not_lt.mpr (show (1986:ℝ) ≤ year by linarith), not_lt.mpr (show (2005:ℝ) ≤ year by linarith), h2, if_true, if_false]
  rw [hp]
  unfold calculateDeltat
  dsimp only
  refine (npwhere_neg (by simp only [Fl.ofNat_eq, Fl.neg_fin, Fl.fin_le, Fl.fin_lt, not_and, not_lt, not_le] <;> intros <;> linarith) _ _).trans ?_
  refine (npwhere_neg (by simp only [Fl.ofNat_eq, Fl.neg_fin, Fl.fin_le, Fl.fin_lt, not_and, not_lt, not_le] <;> intros <;> linarith) _ _).trans ?_
  refine (npwhere_pos (by simp only [Fl.ofNat_eq, Fl.neg_fin, Fl.fin_le, Fl.fin_lt] <;> first | linarith | (constructor <;> linarith)) _ _).trans ?_
  simp only [Piece.eval, table, lastPiece, List.getElem_cons_succ, List.getElem_cons_zero, horner]
  simp only [Fl.ofNat_eq, Fl.ofScientific_eq, Fl.neg_fin, Fl.fin_sub, Fl.fin_add, Fl.fin_mul, Fl.fin_pow, Fl.fin_div, ne_eq, OfNat.ofNat_ne_zero, not_false_eq_true, Fl.fin_inj]
  ring

private theorem leaf13 (year month : ℝ) (h1 : 2050 ≤ year) (h2 : year < 2150) :
    calculateDeltat (fin year) (fin month) =
      fin ((pieceFor year table).eval (year + (month - 1 / 2) / 12)) := by
  have hp : pieceFor year table = (table[13]'(by simp [table])).2 := by
    simp only [pieceFor, table, List.getElem_cons_succ, List.getElem_cons_zero, not_lt.mpr (show (-500:ℝ) ≤ year by linarith), not_lt.mpr (show (500:ℝ) ≤ year by linarith), not_lt.mpr (show (1600:ℝ) ≤ year by linarith), not_lt.mpr (show (1700:ℝ) ≤ year by linarith), not_lt.mpr (show (1800:ℝ) ≤ year by linarith), not_lt.mpr (show (1860:ℝ) ≤ year by linarith), not_lt.mpr (show (1900:ℝ) ≤ year by linarith), not_lt.mpr (show (1920:ℝ) ≤ year by linarith), not_lt.mpr (show (1941:ℝ) ≤ year by linarith), not_lt.mpr (show (1961:ℝ) ≤ year by linarith), not_lt.mpr (show (1986:ℝ) ≤ year by linarith), not_lt.mpr (show (2005:ℝ) ≤ year by linarith), not_lt.mpr (show (2050:ℝ) ≤ year by linarith), h2, if_true, if_false]
  rw [hp]
  unfold calculateDeltat
  dsimp only
  refine (npwhere_neg (by simp only [Fl.ofNat_eq, Fl.neg_fin, Fl.fin_le, Fl.fin_lt, not_and, not_lt, not_le] <;> intros <;> linarith) _ _).trans ?_
  refine (npwhere_pos (by simp only [Fl.ofNat_eq, Fl.neg_fin, Fl.fin_le, Fl.fin_lt] <;> first | linarith | (constructor <;> linarith)) _ _).trans ?_
  simp only [Piece.eval, table, lastPiece, List.getElem_cons_succ, List.getElem_cons_zero, horner]
  simp only [Fl.ofNat_eq, Fl.ofScientific_eq, Fl.neg_fin, Fl.fin_sub, Fl.fin_add, Fl.fin_mul, Fl.fin_pow, Fl.fin_div, ne_eq, OfNat.ofNat_ne_zero, not_false_eq_true, Fl.fin_inj]
  ring

private theorem leaf14 (year month : ℝ) (h1 : 2150 ≤ year) :
    calculateDeltat (fin year) (fin month) =
      fin ((pieceFor year table).eval (year + (month - 1 / 2) / 12)) := by
  have hp : pieceFor year table = lastPiece := by
    simp only [pieceFor, table, List.getElem_cons_succ, List.getElem_cons_zero, not_lt.mpr (show (-500:ℝ) ≤ year by linarith), not_lt.mpr (show (500:ℝ) ≤ year by linarith), not_lt.mpr (show (1600:ℝ) ≤ year by linarith), not_lt.mpr (show (1700:ℝ) ≤ year by linarith), not_lt.mpr (show (1800:ℝ) ≤ year by linarith), not_lt.mpr (show (1860:ℝ) ≤ year by linarith), not_lt.mpr (show (1900:ℝ) ≤ year by linarith), not_lt.mpr (show (1920:ℝ) ≤ year by linarith), not_lt.mpr (show (1941:ℝ) ≤ year by linarith), not_lt.mpr (show (1961:ℝ) ≤ year by linarith), not_lt.mpr (show (1986:ℝ) ≤ year by linarith), not_lt.mpr (show (2005:ℝ) ≤ year by linarith), not_lt.mpr (show (2050:ℝ) ≤ year by linarith), not_lt.mpr (show (2150:ℝ) ≤ year by linarith), if_true, if_false]
  rw [hp]
  unfold calculateDeltat
  dsimp only
  refine (npwhere_pos (by simp only [Fl.ofNat_eq, Fl.neg_fin, Fl.fin_le, Fl.fin_lt] <;> first | linarith | (constructor <;> linarith)) _ _).trans ?_
  simp only [Piece.eval, table, lastPiece, List.getElem_cons_succ, List.getElem_cons_zero, horner]
  simp only [Fl.ofNat_eq, Fl.ofScientific_eq, Fl.neg_fin, Fl.fin_sub, Fl.fin_add, Fl.fin_mul, Fl.fin_pow, Fl.fin_div, ne_eq, OfNat.ofNat_ne_zero, not_false_eq_true, Fl.fin_inj]
  ring

/-- **C114.** Each year is covered by exactly one piece of the published table, evaluated at the middle of the
month. -/
theorem deltat_spec (year month : ℝ) :
    calculateDeltat (fin year) (fin month) =
      fin ((pieceFor year table).eval (year + (month - 1 / 2) / 12)) := by
  rcases lt_or_ge year (-500) with h0 | h0
  · exact leaf0 year month h0
  rcases lt_or_ge year 500 with h1 | h1
  · exact leaf1 year month h0 h1
  rcases lt_or_ge year 1600 with h2 | h2
  · exact leaf2 year month h1 h2
  rcases lt_or_ge year 1700 with h3 | h3
  · exact leaf3 year month h2 h3
  rcases lt_or_ge year 1800 with h4 | h4
  · exact leaf4 year month h3 h4
  rcases lt_or_ge year 1860 with h5 | h5
  · exact leaf5 year month h4 h5
  rcases lt_or_ge year 1900 with h6 | h6
  · exact leaf6 year month h5 h6
  rcases lt_or_ge year 1920 with h7 | h7
  · exact leaf7 year month h6 h7
  rcases lt_or_ge year 1941 with h8 | h8
  · exact leaf8 year month h7 h8
  rcases lt_or_ge year 1961 with h9 | h9
  · exact leaf9 year month h8 h9
  rcases lt_or_ge year 1986 with h10 | h10
  · exact leaf10 year month h9 h10
  rcases lt_or_ge year 2005 with h11 | h11
  · exact leaf11 year month h10 h11
  rcases lt_or_ge year 2050 with h12 | h12
  · exact leaf12 year month h11 h12
  rcases lt_or_ge year 2150 with h13 | h13
  · exact leaf13 year month h12 h13
  exact leaf14 year month h13

/-- The boundary years of the published table. -/
def boundaries : List ℝ := [-500, 500, 1600, 1700, 1800, 1860, 1900, 1920, 1941, 1961, 1986, 2005, 2050, 2150]

private theorem jump0 : |(pieceFor (-500) table).eval ((-500 : ℝ) + (1 - 1 / 2) / 12) -
    (pieceFor ((-500 : ℝ) - 1) table).eval (((-500 : ℝ) - 1) + (12 - 1 / 2) / 12)| < 1.4 := by
  simp only [pieceFor, table]
  norm_num [Piece.eval, horner, lastPiece, abs_lt]

private theorem jump1 : |(pieceFor (500) table).eval ((500 : ℝ) + (1 - 1 / 2) / 12) -
    (pieceFor ((500 : ℝ) - 1) table).eval (((500 : ℝ) - 1) + (12 - 1 / 2) / 12)| < 1.4 := by
  simp only [pieceFor, table]
  norm_num [Piece.eval, horner, lastPiece, abs_lt]

private theorem jump2 : |(pieceFor (1600) table).eval ((1600 : ℝ) + (1 - 1 / 2) / 12) -
    (pieceFor ((1600 : ℝ) - 1) table).eval (((1600 : ℝ) - 1) + (12 - 1 / 2) / 12)| < 1.4 := by
  simp only [pieceFor, table]
  norm_num [Piece.eval, horner, lastPiece, abs_lt]

private theorem jump3 : |(pieceFor (1700) table).eval ((1700 : ℝ) + (1 - 1 / 2) / 12) -
    (pieceFor ((1700 : ℝ) - 1) table).eval (((1700 : ℝ) - 1) + (12 - 1 / 2) / 12)| < 1.4 := by
  simp only [pieceFor, table]
  norm_num [Piece.eval, horner, lastPiece, abs_lt]

private theorem jump4 : |(pieceFor (1800) table).eval ((1800 : ℝ) + (1 - 1 / 2) / 12) -
    (pieceFor ((1800 : ℝ) - 1) table).eval (((1800 : ℝ) - 1) + (12 - 1 / 2) / 12)| < 1.4 := by
  simp only [pieceFor, table]
  norm_num [Piece.eval, horner, lastPiece, abs_lt]

private theorem jump5 : |(pieceFor (1860) table).eval ((1860 : ℝ) + (1 - 1 / 2) / 12) -
    (pieceFor ((1860 : ℝ) - 1) table).eval (((1860 : ℝ) - 1) + (12 - 1 / 2) / 12)| < 1.4 := by
  simp only [pieceFor, table]
  norm_num [Piece.eval, horner, lastPiece, abs_lt]

private theorem jump6 : |(pieceFor (1900) table).eval ((1900 : ℝ) + (1 - 1 / 2) / 12) -
    (pieceFor ((1900 : ℝ) - 1) table).eval (((1900 : ℝ) - 1) + (12 - 1 / 2) / 12)| < 1.4 := by
  simp only [pieceFor, table]
  norm_num [Piece.eval, horner, lastPiece, abs_lt]

private theorem jump7 : |(pieceFor (1920) table).eval ((1920 : ℝ) + (1 - 1 / 2) / 12) -
    (pieceFor ((1920 : ℝ) - 1) table).eval (((1920 : ℝ) - 1) + (12 - 1 / 2) / 12)| < 1.4 := by
  simp only [pieceFor, table]
  norm_num [Piece.eval, horner, lastPiece, abs_lt]

private theorem jump8 : |(pieceFor (1941) table).eval ((1941 : ℝ) + (1 - 1 / 2) / 12) -
    (pieceFor ((1941 : ℝ) - 1) table).eval (((1941 : ℝ) - 1) + (12 - 1 / 2) / 12)| < 1.4 := by
  simp only [pieceFor, table]
  norm_num [Piece.eval, horner, lastPiece, abs_lt]

private theorem jump9 : |(pieceFor (1961) table).eval ((1961 : ℝ) + (1 - 1 / 2) / 12) -
    (pieceFor ((1961 : ℝ) - 1) table).eval (((1961 : ℝ) - 1) + (12 - 1 / 2) / 12)| < 1.4 := by
  simp only [pieceFor, table]
  norm_num [Piece.eval, horner, lastPiece, abs_lt]

private theorem jump10 : |(pieceFor (1986) table).eval ((1986 : ℝ) + (1 - 1 / 2) / 12) -
    (pieceFor ((1986 : ℝ) - 1) table).eval (((1986 : ℝ) - 1) + (12 - 1 / 2) / 12)| < 1.4 := by
  simp only [pieceFor, table]
  norm_num [Piece.eval, horner, lastPiece, abs_lt]

private theorem jump11 : |(pieceFor (2005) table).eval ((2005 : ℝ) + (1 - 1 / 2) / 12) -
    (pieceFor ((2005 : ℝ) - 1) table).eval (((2005 : ℝ) - 1) + (12 - 1 / 2) / 12)| < 1.4 := by
  simp only [pieceFor, table]
  norm_num [Piece.eval, horner, lastPiece, abs_lt]

private theorem jump12 : |(pieceFor (2050) table).eval ((2050 : ℝ) + (1 - 1 / 2) / 12) -
    (pieceFor ((2050 : ℝ) - 1) table).eval (((2050 : ℝ) - 1) + (12 - 1 / 2) / 12)| < 1.4 := by
  simp only [pieceFor, table]
  norm_num [Piece.eval, horner, lastPiece, abs_lt]

private theorem jump13 : |(pieceFor (2150) table).eval ((2150 : ℝ) + (1 - 1 / 2) / 12) -
    (pieceFor ((2150 : ℝ) - 1) table).eval (((2150 : ℝ) - 1) + (12 - 1 / 2) / 12)| < 1.4 := by
  simp only [pieceFor, table]
  norm_num [Piece.eval, horner, lastPiece, abs_lt]

/-- The formula changes at fourteen years; across each change (December to January) the value moves by less than
1.4 seconds. -/
theorem deltat_jump (b : ℝ) (hb : b ∈ boundaries) :
    ∃ before after, calculateDeltat (fin (b - 1)) (fin 12) = fin before ∧
      calculateDeltat (fin b) (fin 1) = fin after ∧ |after - before| < 1.4 := by
  refine ⟨_, _, deltat_spec _ _, deltat_spec _ _, ?_⟩
  simp only [boundaries, List.mem_cons, List.not_mem_nil, or_false] at hb
  rcases hb with rfl | rfl | rfl | rfl | rfl | rfl | rfl | rfl | rfl | rfl | rfl | rfl | rfl | rfl
  · exact jump0
  · exact jump1
  · exact jump2
  · exact jump3
  · exact jump4
  · exact jump5
  · exact jump6
  · exact jump7
  · exact jump8
  · exact jump9
  · exact jump10
  · exact jump11
  · exact jump12
  · exact jump13

example := deltat_jump 1986 (by norm_num [boundaries])

/-- The boundaries are exactly the upper limits in the table. -/
theorem boundaries_eq : boundaries = table.map (·.1) := rfl

/-- The result is a real number for every finite year and month, and depends on nothing else. -/
theorem deltat_finite (year month : ℝ) : ∃ d, calculateDeltat (fin year) (fin month) = fin d :=
  ⟨_, deltat_spec year month⟩

/-- A NaN year (a `NaT` time) silently gives 0, not NaN. -/
theorem deltat_nan_year (month : Fl) : calculateDeltat nan month = fin 0 := by
  unfold calculateDeltat
  simp [npwhere]

/-- For the years 2005 to 2049 the value lies between 64 and 94 seconds, for every month. -/
theorem deltat_modern (year month : ℝ) (h1 : 2005 ≤ year) (h2 : year ≤ 2049) (hm1 : 1 ≤ month) (hm2 : month ≤ 12) :
    ∃ d, calculateDeltat (fin year) (fin month) = fin d ∧ 64 < d ∧ d < 94 := by
  refine ⟨_, leaf12 year month h1 (by linarith), ?_⟩
  have hp : pieceFor year table = ⟨2000, 1, [62.92, 0.32217, 0.005589]⟩ := by
    have e : ∀ b : ℝ, b ≤ 2005 → ¬ year < b := fun b hb => by linarith
    simp only [pieceFor, table]
    rw [if_neg (e _ (by norm_num)), if_neg (e _ (by norm_num)), if_neg (e _ (by norm_num)),
      if_neg (e _ (by norm_num)), if_neg (e _ (by norm_num)), if_neg (e _ (by norm_num)),
      if_neg (e _ (by norm_num)), if_neg (e _ (by norm_num)), if_neg (e _ (by norm_num)),
      if_neg (e _ (by norm_num)), if_neg (e _ (by norm_num)), if_neg (e _ (by norm_num)),
      if_pos (by linarith)]
  rw [hp]
  simp only [Piece.eval, horner]
  set y := year + (month - 1 / 2) / 12 with hy
  have hy1 : 2005 ≤ y := by rw [hy]; linarith
  have hy2 : y ≤ 2050 := by rw [hy]; linarith
  norm_num
  constructor <;> nlinarith

/-- Within 2005 to 2049 a later month has a larger value. -/
theorem deltat_modern_increasing (year month year' month' : ℝ) (h1 : 2005 ≤ year) (h1' : 2005 ≤ year')
    (h2 : year ≤ 2049) (h2' : year' ≤ 2049) (hm : 1 ≤ month)
    (hlt : year + month / 12 < year' + month' / 12) :
    ∃ d d', calculateDeltat (fin year) (fin month) = fin d ∧
      calculateDeltat (fin year') (fin month') = fin d' ∧ d < d' := by
  have hp : ∀ Y : ℝ, 2005 ≤ Y → Y ≤ 2049 → pieceFor Y table = ⟨2000, 1, [62.92, 0.32217, 0.005589]⟩ := by
    intro Y hY hY2
    have e : ∀ b : ℝ, b ≤ 2005 → ¬ Y < b := fun b hb => by linarith
    simp only [pieceFor, table]
    rw [if_neg (e _ (by norm_num)), if_neg (e _ (by norm_num)), if_neg (e _ (by norm_num)),
      if_neg (e _ (by norm_num)), if_neg (e _ (by norm_num)), if_neg (e _ (by norm_num)),
      if_neg (e _ (by norm_num)), if_neg (e _ (by norm_num)), if_neg (e _ (by norm_num)),
      if_neg (e _ (by norm_num)), if_neg (e _ (by norm_num)), if_neg (e _ (by norm_num)),
      if_pos (by linarith)]
  refine ⟨_, _, deltat_spec _ _, deltat_spec _ _, ?_⟩
  rw [hp _ h1 h2, hp _ h1' h2']
  simp only [Piece.eval, horner]
  set y := year + (month - 1 / 2) / 12 with hy
  set y' := year' + (month' - 1 / 2) / 12 with hy'
  have hy1 : 2005 ≤ y := by rw [hy]; linarith
  have hlt' : y < y' := by rw [hy, hy']; linarith
  norm_num
  nlinarith

example := deltat_modern_increasing 2020 6 2021 1 (by norm_num) (by norm_num) (by norm_num) (by norm_num) (by norm_num) (by norm_num)

/-- The warning is issued exactly for years after 3000 or before -1999; the value is computed all the same. -/
theorem deltat_warns_iff (year : ℝ) : deltatWarns (fin year) ↔ 3000 < year ∨ year < -1999 := by
  simp [deltatWarns]

/-- Witness: June 2020. -/
example : ∃ d, calculateDeltat (fin 2020) (fin 6) = fin d ∧ 64 < d ∧ d < 94 :=
  deltat_modern 2020 6 (by norm_num) (by norm_num) (by norm_num) (by norm_num)

/-- Witness: January 2005 is served by the 2005 piece, not by the one before. -/
example : calculateDeltat (fin 2005) (fin 1) = fin (62.92 + 0.32217 * (5 + 1 / 24) + 0.005589 * (5 + 1 / 24) ^ 2) := by
  rw [deltat_spec]
  simp only [pieceFor, table]
  norm_num [Piece.eval, horner]

end Pvlib.Props.SpaDeltat
end
