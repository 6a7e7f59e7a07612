import Verif.Model.IvUtils
import Mathlib.Data.List.Sort
import Mathlib.Tactic.IntervalCases

/-! # C142: the shape-preserving quadratic spline through an IV curve

Claim: for data with strictly increasing abscissae the knots are the data points, in order, with at most one inserted
knot strictly inside an interval; the slopes at the data are harmonic means of the adjacent chord slopes; the pieces
start at the data with those slopes, join with continuous value and slope at an inserted knot, and on monotone data
every piece is monotone.  Finding: the last coefficient of the piece that follows an inserted knot is divided by the
length of the whole interval instead of the length of the piece, so that piece does not end at the next data point:
the "interpolant" jumps there, by an amount computed exactly below. -/

noncomputable section
open scoped Classical
open Real
namespace Pvlib.Props.Schumaker
open Fl Pvlib.IvTools

/-! ## Specification -/

/-- Chord slope over interval `i`. -/
def chord (x y : ℕ → ℝ) (i : ℕ) : ℝ := (y (i + 1) - y i) / (x (i + 1) - x i)

/-- The prescribed slopes at `n ≥ 2` data points: at an interior point, the harmonic mean of the two chord slopes
if they have the same sign and zero otherwise; at an end point, the slope that makes the end interval a single
parabola if it has the sign of the chord, zero otherwise (`s'` is the slope at the neighbour, zero if that
neighbour is the other end and not yet set). -/
structure SlopeSpec (n : ℕ) (x y s : ℕ → ℝ) : Prop where
  interior : ∀ i, 0 < i → i + 1 < n → s i =
    if 0 < chord x y (i - 1) * chord x y i then 2 / (1 / chord x y (i - 1) + 1 / chord x y i) else 0
  first : 3 ≤ n → s 0 = if 0 < chord x y 0 * (2 * chord x y 0 - s 1) then 2 * chord x y 0 - s 1 else 0
  last : 3 ≤ n → s (n - 1) =
    if 0 < chord x y (n - 2) * (2 * chord x y (n - 2) - s (n - 2)) then 2 * chord x y (n - 2) - s (n - 2) else 0
  two : n = 2 → s 0 = 2 * chord x y 0 ∧ s 1 = 0

/-- The value at `t` of the quadratic piece of a row with real entries. -/
def pieceVal (t0 c0 c1 c2 t : ℝ) : ℝ := c0 * (t - t0) ^ 2 + c1 * (t - t0) + c2

/-- Its slope at `t`. -/
def pieceSlope (t0 c0 c1 t : ℝ) : ℝ := 2 * c0 * (t - t0) + c1

/-- The rows of an interval that keeps a single parabola: it starts at the data point with slope `s i`, ends with
slope `s (i+1)`, and misses the next data value by at most the tolerance of the test. -/
def SingleSeg (x y s : ℕ → ℝ) (i : ℕ) (rows : List QRow) : Prop :=
  ∃ c0 : ℝ, rows = [⟨fin (x i), fin c0, fin (s i), fin (y i), fin (y i), false⟩] ∧
    pieceSlope (x i) c0 (s i) (x (i + 1)) = s (i + 1) ∧
    |pieceVal (x i) c0 (s i) (y i) (x (i + 1)) - y (i + 1)| ≤
      (x (i + 1) - x i) / 2 * (epsSlope + 1e-5 * |2 * chord x y i|)

/-- The rows of an interval with an inserted knot `ξ`: the first piece starts at the data point with slope `s i`; the
knot is strictly inside; value and slope are continuous at the knot; the knot is the point where the slope equals the
chord slope if the chord slope lies between the two end slopes, the midpoint otherwise; and where the second piece
ends. -/
def KnotSeg (x y s : ℕ → ℝ) (i : ℕ) (rows : List QRow) : Prop :=
  ∃ c0 ξ d0 m v : ℝ, rows = [⟨fin (x i), fin c0, fin (s i), fin (y i), fin (y i), false⟩,
      ⟨fin ξ, fin d0, fin m, fin v, fin v, true⟩] ∧
    x i < ξ ∧ ξ < x (i + 1) ∧
    pieceVal (x i) c0 (s i) (y i) ξ = v ∧ pieceSlope (x i) c0 (s i) ξ = m ∧
    ((s i - chord x y i) * (s (i + 1) - chord x y i) < 0 ∧ m = chord x y i ∧
        (s (i + 1) - s i) * (ξ - x i) = (s (i + 1) - chord x y i) * (x (i + 1) - x i) ∨
      (0 ≤ (s i - chord x y i) * (s (i + 1) - chord x y i) ∨ |s i - chord x y i| ≤ epsVal ∨
        |s (i + 1) - chord x y i| ≤ epsVal) ∧
        ξ = (x i + x (i + 1)) / 2 ∧ m = 2 * chord x y i - (s i + s (i + 1)) / 2) ∧
    pieceVal ξ d0 m v (x (i + 1)) - y (i + 1) =
      -(1 / 2) * (s (i + 1) - m) * (x (i + 1) - ξ) * (ξ - x i) / (x (i + 1) - x i) ∧
    pieceSlope ξ d0 m (x (i + 1)) = m + (s (i + 1) - m) * (x (i + 1) - ξ) / (x (i + 1) - x i)

/-! ## Slopes -/

section
variable {n : ℕ} {x y : ℕ → ℝ}

private abbrev X (x : ℕ → ℝ) : Series := fun k => fin (x k)

private theorem delx_fin (i : ℕ) : qDelx (X x) i = fin (x (i + 1) - x i) := by simp [qDelx]

private theorem delta_fin (hx : ∀ i, i + 1 < n → x i < x (i + 1)) (i : ℕ) (hi : i + 1 < n) :
    qDelta (X x) (X y) i = fin (chord x y i) := by
  have := hx i hi
  simp only [qDelta, delx_fin, fin_sub]
  rw [fin_div (by linarith)]
  rfl

private theorem slope0_interior (hx : ∀ i, i + 1 < n → x i < x (i + 1)) (i : ℕ) (h0 : 0 < i) (hi : i + 1 < n) :
    qSlope0 n (X x) (X y) i = fin (if 0 < chord x y (i - 1) * chord x y i
      then 2 / (1 / chord x y (i - 1) + 1 / chord x y i) else 0) := by
  have hl : qLeft (X x) (X y) i = fin (chord x y (i - 1)) := by
    rw [qLeft, if_neg h0.ne', delta_fin hx (i - 1) (by omega)]
  have hr : qRight n (X x) (X y) i = fin (chord x y i) := by
    rw [qRight, if_neg (by omega), delta_fin hx i hi]
  simp only [qSlope0, hl, hr, fin_mul, zero_eq, fin_lt]
  generalize chord x y (i - 1) = a
  generalize chord x y i = b
  by_cases h : 0 < a * b
  · rw [if_pos h, if_pos h]
    have hs : a + b ≠ 0 := by
      intro h'
      have : b = -a := by linarith
      rw [this] at h; nlinarith [sq_nonneg a]
    have ha : a ≠ 0 := by rintro rfl; simp at h
    have hb : b ≠ 0 := by rintro rfl; simp at h
    simp only [ofScientific_eq, fin_mul, fin_add]
    have h5 : (0.5 : ℝ) * a + 0.5 * b = (a + b) / 2 := by norm_num; ring
    rw [h5, fin_div (by simpa using hs)]
    rw [fin_inj, show 1 / a + 1 / b = (a + b) / (a * b) by field_simp; ring]
    field_simp
  · rw [if_neg h, if_neg h]

private theorem slope0_ends (i : ℕ) (hi : i = 0 ∨ i = n - 1) (hfin : ∀ j, j + 1 < n → ∃ r, qDelta (X x) (X y) j = fin r)
    (hn : 2 ≤ n) : qSlope0 n (X x) (X y) i = fin 0 := by
  have hp : qLeft (X x) (X y) i * qRight n (X x) (X y) i = fin 0 := by
    rcases hi with rfl | rfl
    · obtain ⟨r, hr⟩ := hfin 0 (by omega)
      rw [qLeft, if_pos rfl, qRight, if_neg (by omega), hr]; simp
    · obtain ⟨r, hr⟩ := hfin (n - 1 - 1) (by omega)
      rw [qLeft, if_neg (by omega), qRight, if_pos rfl, hr]; simp
  simp only [qSlope0, hp, zero_eq]
  rw [if_neg (by simp)]

/-- The slopes computed by the code are real numbers satisfying the specification. -/
theorem slopes (hn : 2 ≤ n) (hx : ∀ i, i + 1 < n → x i < x (i + 1)) :
    ∃ s : ℕ → ℝ, SlopeSpec n x y s ∧ ∀ i < n, qSlope n (fun k => fin (x k)) (fun k => fin (y k)) i = fin (s i) := by
  have hd := delta_fin (y := y) hx
  have hfin : ∀ j, j + 1 < n → ∃ r, qDelta (X x) (X y) j = fin r := fun j hj => ⟨_, hd j hj⟩
  have hends := fun i hi => slope0_ends (n := n) i hi hfin hn
  -- real stages
  set s0 : ℕ → ℝ := fun i => if i = 0 ∨ i = n - 1 then 0 else
    (if 0 < chord x y (i - 1) * chord x y i then 2 / (1 / chord x y (i - 1) + 1 / chord x y i) else 0) with hs0
  have h0 : ∀ i < n, qSlope0 n (X x) (X y) i = fin (s0 i) := by
    intro i hi
    by_cases h : i = 0 ∨ i = n - 1
    · rw [hends i h, hs0]; simp only [if_pos h]
    · rw [slope0_interior hx i (by omega) (by omega), hs0]; simp only [if_neg h]
  set le := 2 * chord x y 0 - s0 1 with hle
  set s1 : ℕ → ℝ := fun i => if i = 0 ∧ 0 < chord x y 0 * le then le else s0 i with hs1
  have hd0 := hd 0 (by omega)
  have h1 : ∀ i < n, qSlope1 n (X x) (X y) i = fin (s1 i) := by
    intro i hi
    simp only [qSlope1, h0 1 (by omega), h0 i hi, hd0, ofNat_eq, fin_mul, fin_sub, zero_eq, fin_lt, hs1]
    by_cases h : i = 0 ∧ 0 < chord x y 0 * le
    · rw [if_pos h, if_pos h]
    · rw [if_neg h, if_neg h]
  set re := 2 * chord x y (n - 2) - s1 (n - 2) with hre
  have hdn := hd (n - 2) (by omega)
  refine ⟨fun i => if i = n - 1 ∧ 0 < chord x y (n - 2) * re then re else s1 i, ⟨?_, ?_, ?_, ?_⟩, ?_⟩
  · intro i hi hin
    have a1 : ¬ (i = n - 1 ∧ 0 < chord x y (n - 2) * re) := by omega
    have a2 : ¬ (i = 0 ∧ 0 < chord x y 0 * le) := by omega
    have a3 : ¬ (i = 0 ∨ i = n - 1) := by omega
    simp only [if_neg a1, hs1, if_neg a2, hs0, if_neg a3]
  · intro h3
    have a1 : ¬ (0 = n - 1 ∧ 0 < chord x y (n - 2) * re) := by omega
    have a2 : ¬ (1 = n - 1 ∧ 0 < chord x y (n - 2) * re) := by omega
    simp only [if_neg a1, if_neg a2]
    have e1 : s1 1 = s0 1 := by simp [hs1]
    have e0 : s0 0 = 0 := by simp [hs0]
    rw [e1]
    simp only [hs1, true_and, e0, ← hle]
  · intro h3
    have a1 : ¬ (n - 2 = n - 1 ∧ 0 < chord x y (n - 2) * re) := by omega
    simp only [if_neg a1, true_and]
    rw [← hre]
    have e1 : s1 (n - 1) = 0 := by
      have : ¬ (n - 1 = 0 ∧ 0 < chord x y 0 * le) := by omega
      simp only [hs1, if_neg this, hs0]; simp
    rw [e1]
  · rintro rfl
    have e01 : s0 1 = 0 := by simp [hs0]
    have e00 : s0 0 = 0 := by simp [hs0]
    have e10 : s1 0 = 2 * chord x y 0 := by
      simp only [hs1, true_and, hle, e01, sub_zero, e00]
      by_cases h : chord x y 0 = 0
      · simp [h]
      · rw [if_pos]; nlinarith [sq_pos_of_ne_zero h]
    have e11 : s1 1 = 0 := by simp [hs1, e01]
    have ere : re = 0 := by simp only [hre]; rw [show 2 - 2 = 0 from rfl, e10]; ring
    have a0 : ¬ (0 = 2 - 1 ∧ 0 < chord x y (2 - 2) * re) := by omega
    refine ⟨by simp only [if_neg a0, e10], ?_⟩
    simp [ere, e11]
  · intro i hi
    simp only [qSlope, h1 (n - 2) (by omega), h1 i hi, hdn, ofNat_eq, fin_mul, fin_sub, zero_eq, fin_lt]
    by_cases h : i = n - 1 ∧ 0 < chord x y (n - 2) * re
    · rw [if_pos h, if_pos h]
    · rw [if_neg h, if_neg h]

example := slopes (n := 5) (x := fun i => (i:ℝ) ^ 2) (y := fun i => Real.exp i) (by norm_num)
  (fun i _ => by push_cast; nlinarith [Nat.cast_nonneg (α := ℝ) i])

end

/-! ## The rows of one interval -/

section
variable {n : ℕ} {x y s : ℕ → ℝ}

private theorem noKnot_iff (hx : ∀ i, i + 1 < n → x i < x (i + 1))
    (hs : ∀ i < n, qSlope n (X x) (X y) i = fin (s i)) (i : ℕ) (hi : i + 1 < n) :
    qNoKnot n (X x) (X y) i ↔ |s i + s (i + 1) - 2 * chord x y i| ≤ epsSlope + 1e-5 * |2 * chord x y i| := by
  unfold qNoKnot npIsclose
  rw [hs i (by omega), hs (i + 1) hi, delta_fin hx i hi]
  simp only [ofNat_eq, fin_add, fin_mul, fin_sub, abs_fin, ofScientific_eq, fin_le, eqv_fin, isfinite_fin, true_and]
  constructor
  · rintro (h | h)
    · rw [h, sub_self, abs_zero]
      have : 0 ≤ epsSlope := by unfold epsSlope epsVal; positivity
      positivity
    · exact h
  · intro h; exact Or.inr h

private theorem round0 (a : ℝ) : (if npIsclose (fin a) 0 epsVal then (0 : Fl) else fin a) =
    fin (if |a| ≤ epsVal then 0 else a) := by
  have : npIsclose (fin a) 0 epsVal ↔ |a| ≤ epsVal := by
    unfold npIsclose
    simp only [zero_eq, eqv_fin, isfinite_fin, true_and, fin_sub, sub_zero, abs_fin, abs_zero, ofScientific_eq, fin_mul,
      mul_zero, fin_add, add_zero, fin_le]
    constructor
    · rintro (h | h)
      · rw [h, abs_zero]; unfold epsVal; positivity
      · exact h
    · exact Or.inr
  by_cases h : |a| ≤ epsVal
  · rw [if_pos (this.mpr h), if_pos h]; rfl
  · rw [if_neg (fun h' => h (this.mp h')), if_neg h]

/-- Where the code puts the knot. -/
private theorem xi_spec (hx : ∀ i, i + 1 < n → x i < x (i + 1))
    (hs : ∀ i < n, qSlope n (X x) (X y) i = fin (s i)) (i : ℕ) (hi : i + 1 < n)
    (hk : ¬ qNoKnot n (X x) (X y) i) :
    ∃ ξ : ℝ, qXi n (X x) (X y) i = fin ξ ∧ x i < ξ ∧ ξ < x (i + 1) ∧
      ((0 ≤ (s i - chord x y i) * (s (i + 1) - chord x y i) ∨ |s i - chord x y i| ≤ epsVal ∨
          |s (i + 1) - chord x y i| ≤ epsVal) ∧ ξ = (x i + x (i + 1)) / 2 ∨
        (s i - chord x y i) * (s (i + 1) - chord x y i) < 0 ∧
        (s (i + 1) - s i) * (ξ - x i) = (s (i + 1) - chord x y i) * (x (i + 1) - x i)) := by
  have hlt := hx i hi
  set a := s i - chord x y i with ha
  set b := s (i + 1) - chord x y i with hb
  have hA : qAa n (X x) (X y) i = fin (if |a| ≤ epsVal then 0 else a) := by
    rw [← round0]; unfold qAa; rw [hs i (by omega), delta_fin hx i hi]; rfl
  have hB : qB n (X x) (X y) i = fin (if |b| ≤ epsVal then 0 else b) := by
    rw [← round0]; unfold qB; rw [hs (i + 1) hi, delta_fin hx i hi]; rfl
  have hD : qDiffs n (X x) (X y) i = fin (b - a) := by
    unfold qDiffs; rw [hs i (by omega), hs (i + 1) hi, fin_sub, ha, hb]; congr 1; ring
  unfold qXi
  by_cases hv : qMaskV n (X x) (X y) i
  · rw [if_pos hv]
    have hcase : 0 ≤ a * b ∨ |a| ≤ epsVal ∨ |b| ≤ epsVal := by
      by_cases h1 : |a| ≤ epsVal
      · exact Or.inr (Or.inl h1)
      by_cases h2 : |b| ≤ epsVal
      · exact Or.inr (Or.inr h2)
      have := hv.2
      rw [hA, hB, if_neg h1, if_neg h2, fin_mul, zero_eq, fin_le] at this
      exact Or.inl this
    refine ⟨(x i + x (i + 1)) / 2, ?_, by linarith, by linarith, Or.inl ⟨hcase, rfl⟩⟩
    simp only [ofScientific_eq, fin_add, fin_mul, fin_inj]; norm_num; ring
  · have hprod : (if |a| ≤ epsVal then 0 else a) * (if |b| ≤ epsVal then 0 else b) < 0 := by
      by_contra h
      apply hv
      refine ⟨hk, ?_⟩
      rw [hA, hB, fin_mul, zero_eq, fin_le]
      exact not_lt.mp h
    have ha' : ¬ |a| ≤ epsVal := by intro h; rw [if_pos h, zero_mul] at hprod; exact lt_irrefl _ hprod
    have hb' : ¬ |b| ≤ epsVal := by intro h; rw [if_pos h, mul_zero] at hprod; exact lt_irrefl _ hprod
    rw [if_neg ha', if_neg hb'] at hprod
    rw [if_neg ha'] at hA
    rw [if_neg hb'] at hB
    rw [if_neg hv, hA, hB, hD, delx_fin]
    have hba : b - a ≠ 0 := by
      intro h
      have : b = a := by linarith
      rw [this] at hprod; nlinarith [mul_self_nonneg a]
    have hsba : s (i + 1) - s i = b - a := by rw [ha, hb]; ring
    set h := x (i + 1) - x i with hh
    have hpos : 0 < h := by rw [hh]; linarith
    have hfrac : 0 < b / (b - a) ∧ b / (b - a) < 1 := by
      rcases lt_or_gt_of_ne hba with hneg | hpos'
      · have hbneg : b < 0 := by
          by_contra hb0
          have : 0 < a := by linarith [not_lt.mp hb0]
          nlinarith [not_lt.mp hb0]
        have hapos : 0 < a := by
          by_contra h'
          nlinarith [not_lt.mp h']
        exact ⟨div_pos_of_neg_of_neg hbneg hneg, by rw [div_lt_one_of_neg hneg]; linarith⟩
      · have hbpos : 0 < b := by
          by_contra hb0
          have : a < 0 := by linarith [not_lt.mp hb0]
          nlinarith [not_lt.mp hb0]
        have haneg : a < 0 := by
          by_contra h'
          nlinarith [not_lt.mp h']
        exact ⟨div_pos hbpos hpos', by rw [div_lt_one hpos']; linarith⟩
    have key : ∀ ξ : ℝ, ξ = x i + b * h / (b - a) → x i < ξ ∧ ξ < x (i + 1) ∧ (b - a) * (ξ - x i) = b * h := by
      intro ξ hξ
      have e : ξ = x i + b / (b - a) * h := by rw [hξ]; ring
      refine ⟨by rw [e]; nlinarith [mul_pos hfrac.1 hpos], ?_, ?_⟩
      · rw [e]
        have : b / (b - a) * h < 1 * h := by nlinarith [hfrac.2]
        rw [hh] at this ⊢; linarith
      · rw [hξ]; field_simp; ring
    by_cases hw : qMaskW n (X x) (X y) i
    · rw [if_pos hw]
      simp only [fin_mul]
      rw [fin_div hba, fin_add]
      have e : x (i + 1) + a * h / (b - a) = x i + b * h / (b - a) := by rw [hh]; field_simp; ring
      obtain ⟨h1, h2, h3⟩ := key _ e
      exact ⟨_, rfl, h1, h2, Or.inr ⟨hprod, by rw [hsba]; exact h3⟩⟩
    · rw [if_neg hw]
      simp only [fin_mul]
      rw [fin_div hba, fin_add]
      obtain ⟨h1, h2, h3⟩ := key _ rfl
      exact ⟨_, rfl, h1, h2, Or.inr ⟨hprod, by rw [hsba]; exact h3⟩⟩

private theorem seg_single (hx : ∀ i, i + 1 < n → x i < x (i + 1))
    (hs : ∀ i < n, qSlope n (X x) (X y) i = fin (s i)) (i : ℕ) (hi : i + 1 < n)
    (hk : qNoKnot n (X x) (X y) i) : SingleSeg x y s i [qBaseRow n (X x) (X y) i] := by
  have hlt := hx i hi
  have hne : x (i + 1) - x i ≠ 0 := by linarith
  refine ⟨0.5 * (s (i + 1) - s i) / (x (i + 1) - x i), ?_, ?_, ?_⟩
  · unfold qBaseRow
    rw [if_pos hk, qDiffs, hs i (by omega), hs (i + 1) hi, delx_fin]
    simp only [fin_sub, ofScientific_eq, fin_mul]
    rw [fin_div hne]
  · unfold pieceSlope
    field_simp
    norm_num
  · have e : pieceVal (x i) (0.5 * (s (i + 1) - s i) / (x (i + 1) - x i)) (s i) (y i) (x (i + 1)) - y (i + 1) =
        (x (i + 1) - x i) / 2 * (s i + s (i + 1) - 2 * chord x y i) := by
      unfold pieceVal chord
      field_simp
      norm_num
      ring
    rw [e, abs_mul, abs_of_pos (by linarith)]
    exact mul_le_mul_of_nonneg_left ((noKnot_iff hx hs i hi).mp hk) (by linarith)

private theorem seg_knot (hx : ∀ i, i + 1 < n → x i < x (i + 1))
    (hs : ∀ i < n, qSlope n (X x) (X y) i = fin (s i)) (i : ℕ) (hi : i + 1 < n)
    (hk : ¬ qNoKnot n (X x) (X y) i) :
    KnotSeg x y s i [qBaseRow n (X x) (X y) i, qKnotRow n (X x) (X y) i] := by
  have hlt := hx i hi
  obtain ⟨ξ, hξ, h1, h2, h3⟩ := xi_spec hx hs i hi hk
  have hne : x (i + 1) - x i ≠ 0 := by linarith
  have hne2 : ξ - x i ≠ 0 := by linarith
  set m := 2 * chord x y i - s (i + 1) + (s (i + 1) - s i) * (ξ - x i) / (x (i + 1) - x i) with hm
  have hM : qSbar n (X x) (X y) i = fin m := by
    unfold qSbar
    rw [hs i (by omega), hs (i + 1) hi, delta_fin hx i hi, hξ]
    simp only [fin_sub, ofNat_eq, fin_mul]
    rw [fin_div hne, fin_add]
  have hE : qEta n (X x) (X y) i = fin ((m - s i) / (ξ - x i)) := by
    unfold qEta
    rw [hM, hs i (by omega), hξ]
    simp only [fin_sub]
    rw [fin_div hne2]
  set v := y i + s i * (ξ - x i) + 0.5 * ((m - s i) / (ξ - x i)) * (ξ - x i) ^ 2 with hv
  refine ⟨0.5 * ((m - s i) / (ξ - x i)), ξ, 0.5 * (s (i + 1) - m) / (x (i + 1) - x i), m, v, ?_, h1, h2, ?_, ?_, ?_, ?_, ?_⟩
  · unfold qBaseRow qKnotRow
    rw [if_neg hk, hE, hM, hξ, hs i (by omega), hs (i + 1) hi]
    simp only [fin_sub, ofScientific_eq, fin_mul, fin_pow, fin_add]
    rw [fin_div hne]
  · rw [hv]; unfold pieceVal; ring
  · unfold pieceSlope; field_simp; norm_num
  · rcases h3 with ⟨hc, h3⟩ | ⟨hc, h3⟩
    · right
      refine ⟨hc, h3, ?_⟩
      rw [hm, h3]; field_simp; ring
    · left
      refine ⟨hc, ?_, h3⟩
      rw [hm, h3]; field_simp; ring
  · rw [hv, hm]
    unfold pieceVal chord
    field_simp
    norm_num
    ring
  · unfold pieceSlope
    field_simp
    norm_num
    ring

/-! ## The whole output -/

private def seg (n : ℕ) (x y : ℕ → ℝ) (i : ℕ) : List QRow :=
  if qNoKnot n (X x) (X y) i then [qBaseRow n (X x) (X y) i]
  else [qBaseRow n (X x) (X y) i, qKnotRow n (X x) (X y) i]

private theorem seg_perm (n : ℕ) (x y : ℕ → ℝ) (L : List ℕ) :
    (L.map (qBaseRow n (X x) (X y)) ++ (L.filter (fun i => qMaskV n (X x) (X y) i)).map (qKnotRow n (X x) (X y))
      ++ (L.filter (fun i => qMaskW n (X x) (X y) i)).map (qKnotRow n (X x) (X y))
      ++ (L.filter (fun i => qMaskZ n (X x) (X y) i)).map (qKnotRow n (X x) (X y))).Perm (L.flatMap (seg n x y)) := by
  rw [← Multiset.coe_eq_coe]
  induction L with
  | nil => rfl
  | cons a L ih =>
    rw [List.flatMap_cons]
    simp only [← Multiset.coe_add] at ih ⊢
    rw [← ih]
    simp only [List.map_cons, List.filter_cons]
    by_cases hk : qNoKnot n (X x) (X y) a
    · have hv : ¬ qMaskV n (X x) (X y) a := fun h => h.1 hk
      have hw : ¬ qMaskW n (X x) (X y) a := fun h => h.1.1 hk
      have hz : ¬ qMaskZ n (X x) (X y) a := fun h => h.1.1 hk
      simp only [hv, hw, hz, decide_false, Bool.false_eq_true, if_false, seg, if_pos hk, ← Multiset.cons_coe,
        ← Multiset.singleton_add, Multiset.coe_nil]
      abel
    · by_cases hv : qMaskV n (X x) (X y) a
      · have hw : ¬ qMaskW n (X x) (X y) a := fun h => h.1.2 hv
        have hz : ¬ qMaskZ n (X x) (X y) a := fun h => h.1.2 hv
        simp only [hv, hw, hz, decide_false, decide_true, Bool.false_eq_true, if_false, if_true, seg, if_neg hk,
          ← Multiset.cons_coe, ← Multiset.singleton_add, Multiset.coe_nil, List.map_cons]
        abel
      · by_cases hw : qMaskW n (X x) (X y) a
        · have hz : ¬ qMaskZ n (X x) (X y) a := fun h => h.2 hw
          simp only [hv, hw, hz, decide_false, decide_true, Bool.false_eq_true, if_false, if_true, seg, if_neg hk,
            ← Multiset.cons_coe, ← Multiset.singleton_add, Multiset.coe_nil, List.map_cons]
          abel
        · have hz : qMaskZ n (X x) (X y) a := ⟨⟨hk, hv⟩, hw⟩
          simp only [hv, hw, hz, decide_false, decide_true, Bool.false_eq_true, if_false, if_true, seg, if_neg hk,
            ← Multiset.cons_coe, ← Multiset.singleton_add, Multiset.coe_nil, List.map_cons]
          abel

private theorem seg_cases (hx : ∀ i, i + 1 < n → x i < x (i + 1))
    (hs : ∀ i < n, qSlope n (X x) (X y) i = fin (s i)) (i : ℕ) (hi : i + 1 < n) :
    SingleSeg x y s i (seg n x y i) ∧ |s i + s (i + 1) - 2 * chord x y i| ≤ epsSlope + 1e-5 * |2 * chord x y i| ∨
    KnotSeg x y s i (seg n x y i) ∧ epsSlope + 1e-5 * |2 * chord x y i| < |s i + s (i + 1) - 2 * chord x y i| := by
  by_cases hk : qNoKnot n (X x) (X y) i
  · left
    rw [seg, if_pos hk]
    exact ⟨seg_single hx hs i hi hk, (noKnot_iff hx hs i hi).mp hk⟩
  · right
    rw [seg, if_neg hk]
    refine ⟨seg_knot hx hs i hi hk, ?_⟩
    by_contra h
    exact hk ((noKnot_iff hx hs i hi).mpr (not_lt.mp h))

/-- A segment list whose rows have increasing abscissae in `[x i, x (i+1))`. -/
private theorem flat_sorted (hx : ∀ i, i + 1 < n → x i < x (i + 1)) (sg : ℕ → List QRow)
    (H : ∀ i, i + 1 < n → SingleSeg x y s i (sg i) ∨ KnotSeg x y s i (sg i)) (m : ℕ) (hm : m + 1 ≤ n) :
    ((List.range m).flatMap sg).Pairwise (fun p q => p.t < q.t) ∧
      ∀ r ∈ (List.range m).flatMap sg, ∃ t, r.t = fin t ∧ t < x m := by
  induction m with
  | zero => simp
  | succ m ih =>
    obtain ⟨ih1, ih2⟩ := ih (by omega)
    have hlt := hx m (by omega)
    have hseg : (sg m).Pairwise (fun p q => p.t < q.t) ∧ ∀ r ∈ sg m, ∃ t, r.t = fin t ∧ x m ≤ t ∧ t < x (m + 1) := by
      rcases H m (by omega) with ⟨c0, h, _⟩ | ⟨c0, ξ, d0, mm, v, h, h1, h2, _⟩
      · rw [h]
        refine ⟨List.pairwise_singleton _ _, ?_⟩
        intro r hr
        rw [List.mem_singleton] at hr
        subst hr
        exact ⟨x m, rfl, le_refl _, hlt⟩
      · rw [h]
        refine ⟨?_, ?_⟩
        · simp [h1]
        · intro r hr
          rcases List.mem_cons.mp hr with rfl | hr
          · exact ⟨x m, rfl, le_refl _, hlt⟩
          · rw [List.mem_singleton] at hr
            subst hr
            exact ⟨ξ, rfl, h1.le, h2⟩
    rw [List.range_succ, List.flatMap_append, List.flatMap_singleton]
    refine ⟨List.pairwise_append.mpr ⟨ih1, hseg.1, ?_⟩, ?_⟩
    · intro a ha b hb
      obtain ⟨t, ht, ht'⟩ := ih2 a ha
      obtain ⟨u, hu, hu1, _⟩ := hseg.2 b hb
      rw [ht, hu, fin_lt]; linarith
    · intro r hr
      rcases List.mem_append.mp hr with hr | hr
      · obtain ⟨t, ht, ht'⟩ := ih2 r hr
        exact ⟨t, ht, by linarith⟩
      · obtain ⟨t, ht, _, ht'⟩ := hseg.2 r hr
        exact ⟨t, ht, ht'⟩

private theorem full_sorted (hn : 2 ≤ n) (hx : ∀ i, i + 1 < n → x i < x (i + 1)) (sg : ℕ → List QRow)
    (H : ∀ i, i + 1 < n → SingleSeg x y s i (sg i) ∨ KnotSeg x y s i (sg i)) (c0 c1 c2 yh : Fl) (fl : Bool) :
    ((List.range (n - 1)).flatMap sg ++ [(⟨fin (x (n - 1)), c0, c1, c2, yh, fl⟩ : QRow)]).Pairwise
      (fun p q => p.t < q.t) ∧
    ∀ r ∈ (List.range (n - 1)).flatMap sg ++ [(⟨fin (x (n - 1)), c0, c1, c2, yh, fl⟩ : QRow)], ∃ t, r.t = fin t := by
  obtain ⟨h1, h2⟩ := flat_sorted hx sg H (n - 1) (by omega)
  refine ⟨List.pairwise_append.mpr ⟨h1, List.pairwise_singleton _ _, ?_⟩, ?_⟩
  · intro a ha b hb
    obtain ⟨t, ht, ht'⟩ := h2 a ha
    rw [List.mem_singleton] at hb
    subst hb
    rw [ht, fin_lt]; exact ht'
  · intro r hr
    rcases List.mem_append.mp hr with hr | hr
    · obtain ⟨t, ht, _⟩ := h2 r hr
      exact ⟨t, ht⟩
    · rw [List.mem_singleton] at hr
      subst hr
      exact ⟨_, rfl⟩

private theorem keyLe_trans (a b c : QRow) (h1 : qKeyLe a b = true) (h2 : qKeyLe b c = true) : qKeyLe a c = true := by
  simp only [qKeyLe, decide_eq_true_eq] at *
  obtain ⟨a, _⟩ := a; obtain ⟨b, _⟩ := b; obtain ⟨c, _⟩ := c
  cases a <;> cases b <;> cases c <;> simp_all [isnan]
  linarith

private theorem keyLe_total (a b : QRow) : (qKeyLe a b || qKeyLe b a) = true := by
  simp only [qKeyLe, Bool.or_eq_true, decide_eq_true_eq]
  obtain ⟨a, _⟩ := a; obtain ⟨b, _⟩ := b
  cases a <;> cases b <;> simp [isnan]
  exact le_total _ _

end

/-- **C142.**  For every `n ≥ 2` data points with strictly increasing abscissae: with the prescribed slopes `s`, the
output is, interval by interval, one row (single parabola) when `s i + s (i+1)` is twice the chord slope up to the
tolerance and two rows (inserted knot) otherwise, with the endpoint, continuity and position properties of `SingleSeg`
and `KnotSeg`, followed by the last data point. -/
theorem spline_layout (n : ℕ) (x y : ℕ → ℝ) (hn : 2 ≤ n) (hx : ∀ i, i + 1 < n → x i < x (i + 1)) :
    ∃ (s : ℕ → ℝ) (sg : ℕ → List QRow), SlopeSpec n x y s ∧
      schumakerQspline n (fun k => fin (x k)) (fun k => fin (y k)) =
        (List.range (n - 1)).flatMap sg ++ [⟨fin (x (n - 1)), 0, 0, 0, fin (y (n - 1)), false⟩] ∧
      ∀ i, i + 1 < n →
        (SingleSeg x y s i (sg i) ∧ |s i + s (i + 1) - 2 * chord x y i| ≤ epsSlope + 1e-5 * |2 * chord x y i|) ∨
        (KnotSeg x y s i (sg i) ∧ epsSlope + 1e-5 * |2 * chord x y i| < |s i + s (i + 1) - 2 * chord x y i|) := by
  obtain ⟨s, hspec, hs⟩ := slopes (y := y) hn hx
  refine ⟨s, seg n x y, hspec, ?_, fun i hi => seg_cases hx hs i hi⟩
  have H : ∀ i, i + 1 < n → SingleSeg x y s i (seg n x y i) ∨ KnotSeg x y s i (seg n x y i) :=
    fun i hi => (seg_cases hx hs i hi).imp And.left And.left
  obtain ⟨hsort, hreal⟩ := full_sorted hn hx (seg n x y) H 0 0 0 (fin (y (n - 1))) false
  have hperm : (schumakerQspline n (X x) (X y)).Perm
      ((List.range (n - 1)).flatMap (seg n x y) ++ [⟨fin (x (n - 1)), 0, 0, 0, fin (y (n - 1)), false⟩]) := by
    unfold schumakerQspline
    refine (List.mergeSort_perm _ _).trans ?_
    exact (seg_perm n x y _).append_right _
  have hsym : ∀ a ∈ (List.range (n - 1)).flatMap (seg n x y) ++ [(⟨fin (x (n - 1)), 0, 0, 0, fin (y (n - 1)), false⟩ : QRow)],
      ∀ b ∈ (List.range (n - 1)).flatMap (seg n x y) ++ [(⟨fin (x (n - 1)), 0, 0, 0, fin (y (n - 1)), false⟩ : QRow)],
      a ≠ b → a.t < b.t ∨ b.t < a.t := by
    intro a ha b hb hab
    have h1 := hsort.imp (S := fun p q : QRow => p.t < q.t ∨ q.t < p.t) (fun h => Or.inl h)
    haveI : Std.Symm (fun p q : QRow => p.t < q.t ∨ q.t < p.t) := ⟨fun _ _ h => Or.symm h⟩
    exact h1.forall ha hb hab
  refine List.Perm.eq_of_pairwise (le := fun p q => qKeyLe p q = true) ?_ ?_ ?_ hperm
  · intro a b ha hb h1 h2
    by_contra hab
    have ha' := hperm.mem_iff.mp ha
    obtain ⟨ta, hta⟩ := hreal a ha'
    obtain ⟨tb, htb⟩ := hreal b hb
    simp only [qKeyLe, hta, htb, decide_eq_true_eq, fin_le, not_isnan_fin, or_false] at h1 h2
    have := hsym a ha' b hb hab
    rw [hta, htb, fin_lt, fin_lt] at this
    rcases this with h | h <;> linarith
  · exact List.pairwise_mergeSort keyLe_trans keyLe_total _
  · refine hsort.imp_of_mem ?_
    intro a b ha hb h
    obtain ⟨ta, hta⟩ := hreal a ha
    obtain ⟨tb, htb⟩ := hreal b hb
    rw [hta, htb, fin_lt] at h
    simp only [qKeyLe, hta, htb, decide_eq_true_eq, fin_le]
    exact Or.inl h.le

example := spline_layout 5 (fun i => (i:ℝ) ^ 2) (fun i => Real.exp i) (by norm_num)
  (fun i _ => by push_cast; nlinarith [Nat.cast_nonneg (α := ℝ) i])

/-- The knots are strictly increasing. -/
theorem knots_increasing (n : ℕ) (x y : ℕ → ℝ) (hn : 2 ≤ n) (hx : ∀ i, i + 1 < n → x i < x (i + 1)) :
    ((schumakerQspline n (fun k => fin (x k)) (fun k => fin (y k))).map QRow.t).Pairwise (· < ·) := by
  obtain ⟨s, sg, _, he, hsg⟩ := spline_layout n x y hn hx
  rw [he, List.pairwise_map]
  exact (full_sorted hn hx sg (fun i hi => (hsg i hi).imp And.left And.left) _ _ _ _ _).1

example := knots_increasing 5 (fun i => (i:ℝ) ^ 2) (fun i => Real.exp i) (by norm_num)
  (fun i _ => by push_cast; nlinarith [Nat.cast_nonneg (α := ℝ) i])

/-- The rows not flagged as inserted are exactly the data points, in order, with their values. -/
theorem data_points_kept (n : ℕ) (x y : ℕ → ℝ) (hn : 2 ≤ n) (hx : ∀ i, i + 1 < n → x i < x (i + 1)) :
    ((schumakerQspline n (fun k => fin (x k)) (fun k => fin (y k))).filter (fun r => ¬ r.kflag)).map
        (fun r => (r.t, r.yhat)) = (List.range n).map (fun i => (fin (x i), fin (y i))) := by
  obtain ⟨s, sg, _, he, hsg⟩ := spline_layout n x y hn hx
  have key : ∀ m, m + 1 ≤ n → (((List.range m).flatMap sg).filter (fun r => ¬ r.kflag)).map (fun r => (r.t, r.yhat)) =
      (List.range m).map (fun i => (fin (x i), fin (y i))) := by
    intro m
    induction m with
    | zero => intro _; rfl
    | succ m ih =>
      intro hm
      rw [List.range_succ, List.flatMap_append, List.flatMap_singleton, List.filter_append, List.map_append,
        ih (by omega), List.map_append]
      congr 1
      rcases (hsg m (by omega)).imp And.left And.left with ⟨c0, h, _⟩ | ⟨c0, ξ, d0, mm, v, h, _⟩
      · rw [h]; simp
      · rw [h]; simp
  rw [he, List.filter_append, List.map_append, key (n - 1) (by omega)]
  have hn1 : n = n - 1 + 1 := by omega
  conv_rhs => rw [hn1, List.range_succ, List.map_append]
  simp

example := data_points_kept 5 (fun i => (i:ℝ) ^ 2) (fun i => Real.exp i) (by norm_num)
  (fun i _ => by push_cast; nlinarith [Nat.cast_nonneg (α := ℝ) i])

/-! ## Shape -/

private theorem harmonic_le {a b : ℝ} (ha : 0 < a) (hb : 0 < b) :
    0 < 2 / (1 / a + 1 / b) ∧ 2 / (1 / a + 1 / b) ≤ 2 * a ∧ 2 / (1 / a + 1 / b) ≤ 2 * b := by
  have e : 2 / (1 / a + 1 / b) = 2 * (a * b) / (a + b) := by field_simp; ring
  rw [e]
  refine ⟨by positivity, ?_, ?_⟩ <;> rw [div_le_iff₀ (by positivity)] <;> nlinarith [mul_pos ha hb]

/-- On increasing data (every chord slope positive) the slope at every data point is non-negative and at most twice the
slope of each adjacent chord (the region in which a quadratic spline can be monotone). -/
theorem slopes_bounded {n : ℕ} {x y s : ℕ → ℝ} (hn : 2 ≤ n) (h : SlopeSpec n x y s)
    (hpos : ∀ i, i + 1 < n → 0 < chord x y i) (i : ℕ) (hi : i + 1 < n) :
    0 ≤ s i ∧ s i ≤ 2 * chord x y i ∧ 0 ≤ s (i + 1) ∧ s (i + 1) ≤ 2 * chord x y i := by
  have hint : ∀ j, 0 < j → j + 1 < n → 0 ≤ s j ∧ s j ≤ 2 * chord x y (j - 1) ∧ s j ≤ 2 * chord x y j := by
    intro j hj hjn
    have h1 := hpos (j - 1) (by omega)
    have h2 := hpos j hjn
    rw [h.interior j hj hjn, if_pos (mul_pos h1 h2)]
    obtain ⟨a, b, c⟩ := harmonic_le h1 h2
    exact ⟨a.le, b, c⟩
  rcases Nat.lt_or_ge n 3 with h3 | h3
  · obtain rfl : n = 2 := by omega
    obtain rfl : i = 0 := by omega
    obtain ⟨e0, e1⟩ := h.two rfl
    have := hpos 0 (by omega)
    rw [e0, show s (0 + 1) = s 1 from rfl, e1]
    exact ⟨by linarith, le_refl _, le_refl _, by linarith⟩
  · have hc := hpos i hi
    have hleft : 0 ≤ s i ∧ s i ≤ 2 * chord x y i := by
      rcases Nat.eq_zero_or_pos i with rfl | h0
      · rw [h.first h3]
        have := hint 1 (by omega) (by omega)
        split_ifs with hh
        · exact ⟨(pos_of_mul_pos_right hh hc.le).le, by linarith [this.1]⟩
        · exact ⟨le_refl _, by linarith⟩
      · have := hint i h0 hi
        exact ⟨this.1, this.2.2⟩
    refine ⟨hleft.1, hleft.2, ?_⟩
    by_cases hl : i + 1 = n - 1
    · have e : n - 2 = i := by omega
      rw [hl, h.last h3, e]
      split_ifs with hh
      · exact ⟨(pos_of_mul_pos_right hh hc.le).le, by linarith [hleft.1]⟩
      · exact ⟨le_refl _, by linarith⟩
    · have := hint (i + 1) (by omega) (by omega)
      exact ⟨this.1, by simpa using this.2.1⟩

example (i : ℕ) (hi : i + 1 < 5) : ∃ s : ℕ → ℝ, 0 ≤ s i ∧ s i ≤ 2 * chord (fun i => (i:ℝ)) (fun i => Real.exp i) i := by
  obtain ⟨s, hs, -⟩ := slopes (n := 5) (x := fun i => (i:ℝ)) (y := fun i => Real.exp i) (by norm_num) (fun i _ => by push_cast; linarith)
  have := slopes_bounded (by norm_num) hs (fun i _ => by
    unfold chord
    push_cast
    rw [add_sub_cancel_left, div_one]
    have := Real.exp_lt_exp.mpr (lt_add_one (i:ℝ))
    linarith) i hi
  exact ⟨s, this.1, this.2.1⟩

/-- "The piece of row `r` is non-decreasing from its knot up to `b`." -/
def NonDecr (r : QRow) (b : ℝ) : Prop :=
  ∃ t0 c0 c1 : ℝ, r.t = fin t0 ∧ r.c0 = fin c0 ∧ r.c1 = fin c1 ∧ ∀ t, t0 ≤ t → t ≤ b → 0 ≤ pieceSlope t0 c0 c1 t

private theorem chain_of_seg {n : ℕ} {x : ℕ → ℝ} (R : QRow → ℝ → Prop) (sg : ℕ → List QRow) (last : QRow)
    (H : ∀ i, i + 1 < n → (∃ r, sg i = [r] ∧ r.t = fin (x i) ∧ R r (x (i + 1))) ∨
      (∃ r k ξ, sg i = [r, k] ∧ r.t = fin (x i) ∧ k.t = fin ξ ∧ R r ξ ∧ R k (x (i + 1))))
    (hlast : last.t = fin (x (n - 1))) (m : ℕ) : ∀ k, k + m + 1 = n →
    List.IsChain (fun r r' => ∃ t, r'.t = fin t ∧ R r t) ((List.range' k m).flatMap sg ++ [last]) ∧
    ∃ r0 l, (List.range' k m).flatMap sg ++ [last] = r0 :: l ∧ r0.t = fin (x k) := by
  induction m with
  | zero =>
    intro k hk
    refine ⟨by simp, last, [], by simp, ?_⟩
    rw [hlast]; congr 2; omega
  | succ m ih =>
    intro k hk
    obtain ⟨h1, r0, l, h2, h3⟩ := ih (k + 1) (by omega)
    rw [List.range'_succ, List.flatMap_cons, List.append_assoc]
    rw [h2] at h1 ⊢
    rcases H k (by omega) with ⟨r, hr, ht, hR⟩ | ⟨r, q, ξ, hr, ht, hq, hR1, hR2⟩
    · rw [hr]
      exact ⟨List.IsChain.cons_cons ⟨_, h3, hR⟩ h1, r, r0 :: l, rfl, ht⟩
    · rw [hr]
      exact ⟨List.IsChain.cons_cons ⟨_, hq, hR1⟩ (List.IsChain.cons_cons ⟨_, h3, hR2⟩ h1), r, q :: r0 :: l, rfl, ht⟩

private theorem linear_nonneg {t0 c0 c1 b t : ℝ} (h0 : 0 ≤ c1) (hb : 0 ≤ pieceSlope t0 c0 c1 b) (h1 : t0 ≤ t)
    (h2 : t ≤ b) : 0 ≤ pieceSlope t0 c0 c1 t := by
  unfold pieceSlope at *
  rcases le_total 0 c0 with h | h
  · have : 0 ≤ c0 * (t - t0) := mul_nonneg h (by linarith)
    nlinarith
  · nlinarith [mul_le_mul_of_nonpos_left (sub_le_sub_right h2 t0) h]

/-- On increasing data every piece of the spline is non-decreasing between its knot and the next one. -/
theorem pieces_monotone (n : ℕ) (x y : ℕ → ℝ) (hn : 2 ≤ n) (hx : ∀ i, i + 1 < n → x i < x (i + 1))
    (hy : ∀ i, i + 1 < n → y i < y (i + 1)) :
    List.IsChain (fun r r' => ∃ t, r'.t = fin t ∧ NonDecr r t)
      (schumakerQspline n (fun k => fin (x k)) (fun k => fin (y k))) := by
  obtain ⟨s, sg, hspec, he, hsg⟩ := spline_layout n x y hn hx
  have hpos : ∀ i, i + 1 < n → 0 < chord x y i := fun i hi =>
    div_pos (by linarith [hy i hi]) (by linarith [hx i hi])
  rw [he, List.range_eq_range']
  refine (chain_of_seg (n := n) (x := x) NonDecr sg _ ?_ rfl (n - 1) 0 (by omega)).1
  intro i hi
  have hlt := hx i hi
  have hc := hpos i hi
  obtain ⟨b1, b2, b3, b4⟩ := slopes_bounded hn hspec hpos i hi
  rcases (hsg i hi).imp And.left And.left with ⟨c0, h, h1, _⟩ | ⟨c0, ξ, d0, m, v, h, h1, h2, h3, h4, h5, h6, h7⟩
  · exact Or.inl ⟨_, h, rfl, _, _, _, rfl, rfl, rfl, fun t ht1 ht2 => linear_nonneg b1 (by rw [h1]; exact b3) ht1 ht2⟩
  · have hm : 0 ≤ m := by
      rcases h5 with ⟨_, h5, _⟩ | ⟨_, _, h5⟩
      · rw [h5]; exact hc.le
      · rw [h5]; linarith
    have hend : 0 ≤ pieceSlope ξ d0 m (x (i + 1)) := by
      rw [h7]
      have hθ : (x (i + 1) - ξ) / (x (i + 1) - x i) ≤ 1 := by rw [div_le_one (by linarith)]; linarith
      have hθ0 : 0 ≤ (x (i + 1) - ξ) / (x (i + 1) - x i) := div_nonneg (by linarith) (by linarith)
      have e : m + (s (i + 1) - m) * (x (i + 1) - ξ) / (x (i + 1) - x i) =
          m * (1 - (x (i + 1) - ξ) / (x (i + 1) - x i)) + s (i + 1) * ((x (i + 1) - ξ) / (x (i + 1) - x i)) := by ring
      rw [e]
      exact add_nonneg (mul_nonneg hm (by linarith)) (mul_nonneg b3 hθ0)
    refine Or.inr ⟨_, _, ξ, h, rfl, rfl, ⟨_, _, _, rfl, rfl, rfl, ?_⟩, ⟨_, _, _, rfl, rfl, rfl, ?_⟩⟩
    · intro t ht1 ht2
      exact linear_nonneg b1 (by rw [h4]; exact hm) ht1 ht2
    · intro t ht1 ht2
      exact linear_nonneg hm hend ht1 ht2

example := pieces_monotone 5 (fun i => (i:ℝ) ^ 2) (fun i => Real.exp i) (by norm_num)
  (fun i _ => by push_cast; nlinarith [Nat.cast_nonneg (α := ℝ) i]) (fun i _ => Real.exp_lt_exp.mpr (by push_cast; linarith))

/-- Straight-line data (at least three points) are reproduced exactly: no knot is inserted, and every piece is the line. -/
theorem line_reproduced (n : ℕ) (x : ℕ → ℝ) (a b : ℝ) (hn : 3 ≤ n) (hx : ∀ i, i + 1 < n → x i < x (i + 1)) :
    schumakerQspline n (fun k => fin (x k)) (fun k => fin (a + b * x k)) =
      (List.range (n - 1)).map
        (fun i => ⟨fin (x i), fin 0, fin b, fin (a + b * x i), fin (a + b * x i), false⟩) ++
        [⟨fin (x (n - 1)), 0, 0, 0, fin (a + b * x (n - 1)), false⟩] := by
  obtain ⟨s, sg, hspec, he, hsg⟩ := spline_layout n x (fun k => a + b * x k) (by omega) hx
  have hc : ∀ i, i + 1 < n → chord x (fun k => a + b * x k) i = b := by
    intro i hi
    have := hx i hi
    unfold chord
    rw [div_eq_iff (by linarith)]; ring
  have hint : ∀ i, 0 < i → i + 1 < n → s i = b := by
    intro i h0 hi
    rw [hspec.interior i h0 hi, hc i hi, hc (i - 1) (by omega)]
    by_cases hb : b = 0
    · simp [hb]
    · rw [if_pos (mul_self_pos.mpr hb)]; field_simp; ring
  have hs : ∀ i, i < n → s i = b := by
    intro i hi
    rcases Nat.eq_zero_or_pos i with rfl | h0
    · rw [hspec.first hn, hc 0 (by omega), hint 1 (by omega) (by omega)]
      by_cases hb : b = 0
      · simp [hb]
      · rw [if_pos (by nlinarith [mul_self_pos.mpr hb])]; ring
    · by_cases hl : i + 1 < n
      · exact hint i h0 hl
      · have e : i = n - 1 := by omega
        rw [e, hspec.last hn, hc (n - 2) (by omega), hint (n - 2) (by omega) (by omega)]
        by_cases hb : b = 0
        · simp [hb]
        · rw [if_pos (by nlinarith [mul_self_pos.mpr hb])]; ring
  rw [he]
  congr 1
  rw [List.map_eq_flatMap]
  apply List.flatMap_congr
  intro i hi
  have hi' : i + 1 < n := by have := List.mem_range.mp hi; omega
  have hlt := hx i hi'
  rcases hsg i hi' with ⟨⟨c0, h, h1, _⟩, _⟩ | ⟨_, h⟩
  · rw [hs i (by omega), hs (i + 1) hi'] at h1
    have : c0 = 0 := by
      unfold pieceSlope at h1
      have h2 : 2 * c0 * (x (i + 1) - x i) = 0 := by linarith
      rcases mul_eq_zero.mp h2 with h3 | h3
      · linarith
      · linarith
    rw [h, this, hs i (by omega)]
  · exfalso
    rw [hs i (by omega), hs (i + 1) hi', hc i hi'] at h
    have h0 : 0 ≤ epsSlope := by unfold epsSlope epsVal; positivity
    have : |b + b - 2 * b| = 0 := by rw [show b + b - 2 * b = 0 by ring, abs_zero]
    rw [this] at h
    have := abs_nonneg b
    norm_num at h
    linarith

example := line_reproduced 5 (fun i => (i:ℝ) ^ 2) 3 (-2) (by norm_num) (fun i _ => by push_cast; nlinarith [Nat.cast_nonneg (α := ℝ) i])

/-! ## The finding -/

/-- **Finding.**  The piece after an inserted knot reaches the next data value only if its starting slope `m` already
equals the slope `s (i+1)` prescribed there: otherwise the spline jumps at the data point. -/
theorem knot_interval_interpolates_iff {x y s : ℕ → ℝ} {i : ℕ} {rows : List QRow} (h : KnotSeg x y s i rows) :
    ∃ c0 ξ d0 m v : ℝ, rows = [⟨fin (x i), fin c0, fin (s i), fin (y i), fin (y i), false⟩,
      ⟨fin ξ, fin d0, fin m, fin v, fin v, true⟩] ∧
      (pieceVal ξ d0 m v (x (i + 1)) = y (i + 1) ↔ s (i + 1) = m) := by
  obtain ⟨c0, ξ, d0, m, v, hr, h1, h2, h3, h4, h5, h6, h7⟩ := h
  refine ⟨c0, ξ, d0, m, v, hr, ?_⟩
  rw [← sub_eq_zero, h6]
  have a : x (i + 1) - ξ ≠ 0 := by linarith
  have b : ξ - x i ≠ 0 := by linarith
  have c : x (i + 1) - x i ≠ 0 := by linarith
  rw [div_eq_zero_iff, or_iff_left c]
  simp only [mul_eq_zero, a, b, or_false]
  constructor
  · rintro (h | h)
    · norm_num at h
    · linarith
  · intro h; right; linarith

/-- The witness data of the finding: `(0,0), (1,1), (2,4), (3,5)`. -/
def jumpY : ℕ → ℝ := fun k => if k = 0 then 0 else if k = 1 then 1 else if k = 2 then 4 else 5

private theorem epsSlope_lt : epsSlope < 1 := by
  unfold epsSlope epsVal
  apply Real.rpow_lt_one (by positivity) _ (by norm_num)
  rw [show ((2 : ℝ) ^ (-52 : ℤ)) = 1 / 2 ^ 52 by norm_num]
  norm_num

/-- **Finding, concretely.**  On the increasing data `(0,0), (1,1), (2,4), (3,5)` the piece that should end at `(2, 4)`
starts at the inserted knot `3/2` with value `5/2` and reaches `35/8 = 4.375` at `2`: the spline overshoots the data
point, and drops by `0.375` there, although the data and every piece are increasing. -/
theorem spline_jumps : ∃ pre post : List QRow,
    schumakerQspline 4 (fun k => fin (k : ℝ)) (fun k => fin (jumpY k)) =
      pre ++ [⟨fin (3 / 2), fin (-3 / 2), fin (9 / 2), fin (5 / 2), fin (5 / 2), true⟩] ++ post ∧
    (∃ r l, post = r :: l ∧ r.t = fin 2 ∧ r.yhat = fin 4) ∧
    pieceVal (3 / 2) (-3 / 2) (9 / 2) (5 / 2) 2 = 35 / 8 := by
  obtain ⟨s, sg, hspec, he, hsg⟩ := spline_layout 4 (fun k => (k : ℝ)) jumpY (by norm_num)
    (by intro i _; push_cast; linarith)
  have c0 : chord (fun k => (k : ℝ)) jumpY 0 = 1 := by norm_num [chord, jumpY]
  have c1 : chord (fun k => (k : ℝ)) jumpY 1 = 3 := by norm_num [chord, jumpY]
  have c2 : chord (fun k => (k : ℝ)) jumpY 2 = 1 := by norm_num [chord, jumpY]
  have s1 : s 1 = 3 / 2 := by
    rw [hspec.interior 1 (by norm_num) (by norm_num)]; simp only [Nat.sub_self, c0, c1]; norm_num
  have s2 : s 2 = 3 / 2 := by
    rw [hspec.interior 2 (by norm_num) (by norm_num)]; simp only [show 2 - 1 = 1 from rfl, c2, c1]; norm_num
  have hk := hsg 1 (by norm_num)
  rw [c1, show (1 : ℕ) + 1 = 2 from rfl, s1, s2] at hk
  have hk1 : KnotSeg (fun k => (k : ℝ)) jumpY s 1 (sg 1) := by
    rcases hk with ⟨_, h⟩ | ⟨h, _⟩
    · have := epsSlope_lt
      norm_num [abs_of_neg] at h
      linarith
    · exact h
  obtain ⟨a0, ξ, d0, m, v, hr, h1, h2, h3, h4, h5, h6, h7⟩ := hk1
  rw [c1, show (1 : ℕ) + 1 = 2 from rfl, s1, s2] at h5
  rw [s1] at h3 h4
  rw [show (1 : ℕ) + 1 = 2 from rfl, s2] at h6 h7
  push_cast at h1 h2 h3 h4 h5 h6 h7
  have hξm : ξ = 3 / 2 ∧ m = 9 / 2 := by
    rcases h5 with ⟨h, _⟩ | ⟨_, h, h'⟩
    · norm_num at h
    · exact ⟨by rw [h]; norm_num, by rw [h']; norm_num⟩
  obtain ⟨rfl, rfl⟩ := hξm
  have ha0 : a0 = 3 := by unfold pieceSlope at h4; norm_num at h4; linarith
  subst ha0
  have hv : v = 5 / 2 := by rw [← h3]; norm_num [pieceVal, jumpY]
  have hd : d0 = -3 / 2 := by unfold pieceSlope at h7; norm_num at h7; linarith
  subst hv hd
  have h2rows : ∃ r l, sg 2 = r :: l ∧ r.t = fin 2 ∧ r.yhat = fin 4 := by
    rcases (hsg 2 (by norm_num)).imp And.left And.left with ⟨_, h, _⟩ | ⟨_, _, _, _, _, h, _⟩
    · exact ⟨_, _, h, by norm_num, by norm_num [jumpY]⟩
    · exact ⟨_, _, h, by norm_num, by norm_num [jumpY]⟩
  obtain ⟨r, l, hrl, ht, hy⟩ := h2rows
  refine ⟨sg 0 ++ [⟨fin ((1 : ℕ) : ℝ), fin 3, fin (s 1), fin (jumpY 1), fin (jumpY 1), false⟩],
    r :: (l ++ [⟨fin ((3 : ℕ) : ℝ), 0, 0, 0, fin (jumpY 3), false⟩]), ?_, ⟨r, _, rfl, ht, hy⟩, by norm_num [pieceVal]⟩
  rw [he]
  simp only [show List.range (4 - 1) = [0, 1, 2] from rfl, List.flatMap_cons, List.flatMap_nil, hr, hrl]
  simp

end Pvlib.Props.Schumaker
