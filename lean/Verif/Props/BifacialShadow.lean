import Verif.Props.TrigValues
import Verif.Model.Bifacial
import Mathlib.MeasureTheory.Measure.Lebesgue.Basic
import Mathlib.Analysis.Real.Pi.Bounds
import Mathlib.Analysis.SpecialFunctions.Trigonometric.Bounds
import Mathlib.Analysis.SpecialFunctions.Trigonometric.Arctan

/-! # C125: the shaded fraction of the ground below rows of modules -/

noncomputable section
open Fl Classical MeasureTheory
open scoped Real

namespace Pvlib.Props.BifacialShadow

open Pvlib.Bifacial Pvlib.Tools

/-! ### Specification -/

/-- Where the ray through the point (x, y) hits the ground when the sun is at projected zenith `φ` (degrees). -/
def shadowOf (φ : ℝ) (p : ℝ × ℝ) : ℝ := p.1 + p.2 * Real.tan (φ * (π / 180))

/-- Edges of row `k`: rows of width `w` centred `h` above ground every `pitch`, rotated by `θ` degrees. -/
def rightEdge (θ w h pitch : ℝ) (k : ℤ) : ℝ × ℝ :=
  (k * pitch + w / 2 * Real.cos (θ * (π / 180)), h + w / 2 * Real.sin (θ * (π / 180)))
def leftEdge (θ w h pitch : ℝ) (k : ℤ) : ℝ × ℝ :=
  (k * pitch - w / 2 * Real.cos (θ * (π / 180)), h - w / 2 * Real.sin (θ * (π / 180)))

/-- The shadow of row `k` on the ground. -/
def shadow (θ φ w h pitch : ℝ) (k : ℤ) : Set ℝ :=
  Set.uIcc (shadowOf φ (leftEdge θ w h pitch k)) (shadowOf φ (rightEdge θ w h pitch k))

/-! ### One shadow -/

/-- Length of the part of [lo, hi] inside [a, b]. -/
def overlap (lo hi a b : ℝ) : ℝ := max 0 (min hi b - max lo a)

theorem shadowPart_fin (c d a b : ℝ) (hab : a < b) :
    shadowPart (fin c) (fin d) (fin a) (fin b) = fin (overlap (min c d) (max c d) a b / (b - a)) := by
  have key : ∀ lo hi : ℝ, lo ≤ hi →
      npwhere (b < lo ∧ b < hi) 0 (npwhere (a < lo ∧ lo < b ∧ a < hi ∧ hi < b) (fin ((hi - lo) / (b - a)))
        (npwhere (a < lo ∧ lo ≤ b ∧ b ≤ hi) (fin ((b - lo) / (b - a)))
          (npwhere (lo < a ∧ hi < a) 0 (npwhere (lo ≤ a ∧ a ≤ hi ∧ hi < b) (fin ((hi - a) / (b - a))) 1)))) =
      fin (overlap lo hi a b / (b - a)) := by
    intro lo hi h
    have hd : 0 < b - a := by linarith
    unfold overlap
    by_cases h1 : b < lo
    · rw [npwhere_pos ⟨h1, lt_of_lt_of_le h1 h⟩, max_eq_left (by
        have := min_le_right hi b; have := le_max_left lo a; linarith)]
      simp
    rw [npwhere_neg (fun h => h1 h.1)]
    push Not at h1
    by_cases h2 : a < lo
    · by_cases h3 : b ≤ hi
      · rw [npwhere_neg (by rintro ⟨-, -, -, h⟩; linarith), npwhere_pos ⟨h2, h1, h3⟩, min_eq_right h3, max_eq_left h2.le,
          max_eq_right (by linarith)]
      · push Not at h3
        rw [npwhere_pos ⟨h2, lt_of_le_of_lt h h3, lt_of_lt_of_le h2 h, h3⟩, min_eq_left h3.le, max_eq_left h2.le,
          max_eq_right (by linarith)]
    · rw [npwhere_neg (fun h => h2 h.1), npwhere_neg (fun h => h2 h.1)]
      push Not at h2
      by_cases h3 : hi < a
      · rw [npwhere_pos ⟨lt_of_le_of_lt h h3, h3⟩, max_eq_left (by
          have := min_le_left hi b; have := le_max_right lo a; linarith)]
        simp
      · rw [npwhere_neg (fun h => h3 h.2)]
        push Not at h3
        by_cases h4 : hi < b
        · rw [npwhere_pos ⟨h2, h3, h4⟩, min_eq_left h4.le, max_eq_right h2, max_eq_right (by linarith)]
        · rw [npwhere_neg (fun h => h4 h.2.2)]
          push Not at h4
          rw [min_eq_right h4, max_eq_right h2, max_eq_right (by linarith), div_self hd.ne']
          simp
  have hne : b - a ≠ 0 := by linarith
  unfold shadowPart
  dsimp only
  simp only [fin_lt]
  by_cases hcd : c < d
  · simp only [npwhere_pos hcd, fin_sub, fin_div hne, fin_lt, fin_le]
    rw [min_eq_left hcd.le, max_eq_right hcd.le]
    exact key c d hcd.le
  · simp only [npwhere_neg hcd, fin_sub, fin_div hne, fin_lt, fin_le]
    push Not at hcd
    rw [min_eq_right hcd, max_eq_left hcd]
    exact key d c hcd

example := shadowPart_fin 1.5 0.2 0 1 (by norm_num)

/-! ### All shadows -/

theorem mem_arange (lo hi k : ℤ) : k ∈ arange lo hi ↔ lo ≤ k ∧ k < hi := by
  unfold arange
  rw [List.mem_map]
  constructor
  · rintro ⟨i, hi', rfl⟩
    rw [List.mem_range] at hi'
    omega
  · rintro ⟨h1, h2⟩
    exact ⟨(k - lo).toNat, by rw [List.mem_range]; omega, by omega⟩

theorem nodup_arange (lo hi : ℤ) : (arange lo hi).Nodup := by
  unfold arange
  refine List.Nodup.map ?_ List.nodup_range
  intro a b h
  simpa using h

theorem arange_succ (lo hi : ℤ) (h : lo ≤ hi) : arange lo (hi + 1) = arange lo hi ++ [hi] := by
  unfold arange
  rw [show (hi + 1 - lo).toNat = (hi - lo).toNat + 1 by omega, List.range_succ, List.map_append]
  simp [h]

/-- Part of the ground segment shaded by row `k`. -/
def part (θ φ w h pitch a b : ℝ) (k : ℤ) : ℝ :=
  overlap (min (shadowOf φ (leftEdge θ w h pitch k)) (shadowOf φ (rightEdge θ w h pitch k)))
    (max (shadowOf φ (leftEdge θ w h pitch k)) (shadowOf φ (rightEdge θ w h pitch k))) a b

theorem overlap_nonneg (lo hi a b : ℝ) : 0 ≤ overlap lo hi a b := le_max_left _ _

theorem unshaded_fin (θ φ gcr h pitch mz g0 g1 : ℝ) (n : ℤ) (hp : 0 < pitch) (hg : g0 < g1)
    (hφ : Real.cos (φ * (π / 180)) ≠ 0) (hz : |φ| ≤ mz) :
    unshadedGround (fin θ) (fin φ) (fin gcr) (fin h) (fin pitch) n (fin mz) (fin g0) (fin g1) =
      fin (1 - min 1 (((arange (-n) (n + 2)).map fun k =>
        part θ φ (pitch * gcr) h pitch (g0 * pitch) (g1 * pitch) k).sum / (g1 * pitch - g0 * pitch))) := by
  have hab : g0 * pitch < g1 * pitch := mul_lt_mul_of_pos_right hg hp
  have ht : tand (fin φ) = fin (Real.tan (φ * (π / 180))) := by
    unfold tand; rw [radians_fin, tan_fin', if_neg hφ]
  unfold unshadedGround
  dsimp only
  rw [npwhere_neg (by rw [abs_fin, fin_lt]; exact not_lt.mpr hz)]
  have hmap : ((arange (-n) (n + 2)).map fun k : ℤ =>
      shadowPart (fin k * fin pitch + 0.5 * (fin pitch * fin gcr * cosd (fin θ)) +
          (fin h + 0.5 * (fin pitch * fin gcr * sind (fin θ))) * tand (fin φ))
        (fin k * fin pitch - 0.5 * (fin pitch * fin gcr * cosd (fin θ)) +
          (fin h - 0.5 * (fin pitch * fin gcr * sind (fin θ))) * tand (fin φ))
        (fin g0 * fin pitch) (fin g1 * fin pitch)) =
      ((arange (-n) (n + 2)).map fun k =>
        part θ φ (pitch * gcr) h pitch (g0 * pitch) (g1 * pitch) k / (g1 * pitch - g0 * pitch)).map fin := by
    rw [List.map_map]
    refine List.map_congr_left fun k _ => ?_
    rw [ht]
    simp only [ofScientific_eq, cosd_fin, sind_fin, fin_mul, fin_add, fin_sub, Function.comp]
    rw [shadowPart_fin _ _ _ _ hab]
    unfold part shadowOf leftEdge rightEdge
    congr 2
    rw [min_comm, max_comm]
    congr 2 <;> norm_num <;> ring
  rw [hmap, sum_fin, one_eq, zero_eq]
  have hs : ((arange (-n) (n + 2)).map fun k =>
      part θ φ (pitch * gcr) h pitch (g0 * pitch) (g1 * pitch) k / (g1 * pitch - g0 * pitch)).sum =
      ((arange (-n) (n + 2)).map fun k =>
        part θ φ (pitch * gcr) h pitch (g0 * pitch) (g1 * pitch) k).sum / (g1 * pitch - g0 * pitch) := by
    simp only [div_eq_mul_inv]
    rw [List.sum_map_mul_right]
  rw [hs]
  have h0 : 0 ≤ ((arange (-n) (n + 2)).map fun k =>
        part θ φ (pitch * gcr) h pitch (g0 * pitch) (g1 * pitch) k).sum / (g1 * pitch - g0 * pitch) := by
    refine div_nonneg (List.sum_nonneg ?_) (by linarith)
    intro x hx
    rw [List.mem_map] at hx
    obtain ⟨k, -, rfl⟩ := hx
    exact overlap_nonneg _ _ _ _
  unfold clip
  rw [maximum_fin, minimum_fin, fin_sub, max_eq_left h0, min_comm]

example := unshaded_fin 30 45 0.5 2 4 85 0 1 10 (by norm_num) (by norm_num) (Spec.cosDeg_ne_of (by norm_num) (by norm_num)) (by norm_num [abs_of_pos])

/-- **C125a.** The illuminated fraction of the ground is always between 0 and 1; it is 0 when the projected zenith is
beyond the limit. -/
theorem fraction_range (θ φ gcr h pitch mz g0 g1 : ℝ) (n : ℤ) (hp : 0 < pitch) (hg : g0 < g1)
    (hφ : Real.cos (φ * (π / 180)) ≠ 0) :
    ∃ f, unshadedGround (fin θ) (fin φ) (fin gcr) (fin h) (fin pitch) n (fin mz) (fin g0) (fin g1) = fin f ∧
      0 ≤ f ∧ f ≤ 1 ∧ (mz < |φ| → f = 0) := by
  by_cases hz : |φ| ≤ mz
  · refine ⟨_, unshaded_fin θ φ gcr h pitch mz g0 g1 n hp hg hφ hz, ?_, ?_, fun h => absurd h (not_lt.mpr hz)⟩
    · have := min_le_left (1:ℝ) (((arange (-n) (n + 2)).map fun k =>
        part θ φ (pitch * gcr) h pitch (g0 * pitch) (g1 * pitch) k).sum / (g1 * pitch - g0 * pitch))
      linarith
    · have hab : g0 * pitch < g1 * pitch := mul_lt_mul_of_pos_right hg hp
      have h0 : 0 ≤ ((arange (-n) (n + 2)).map fun k =>
          part θ φ (pitch * gcr) h pitch (g0 * pitch) (g1 * pitch) k).sum / (g1 * pitch - g0 * pitch) := by
        refine div_nonneg (List.sum_nonneg ?_) (by linarith)
        intro x hx
        rw [List.mem_map] at hx
        obtain ⟨k, -, rfl⟩ := hx
        exact overlap_nonneg _ _ _ _
      have := le_min zero_le_one h0
      linarith
  · refine ⟨0, ?_, le_rfl, zero_le_one, fun _ => rfl⟩
    unfold unshadedGround
    dsimp only
    rw [npwhere_pos (by rw [abs_fin, fin_lt]; exact not_le.mp hz)]
    rfl

example := fraction_range 30 45 0.5 2 4 85 0 1 10 (by norm_num) (by norm_num) (Spec.cosDeg_ne_of (by norm_num) (by norm_num))

/-! ### Exactness -/

/-- Half of a shadow's width does not depend on the row: row `k`'s shadow is row 0's, moved by `k` pitches. -/
theorem shadow_shift (θ φ w h pitch : ℝ) (k : ℤ) :
    shadowOf φ (leftEdge θ w h pitch k) = k * pitch + shadowOf φ (leftEdge θ w h pitch 0) ∧
    shadowOf φ (rightEdge θ w h pitch k) = k * pitch + shadowOf φ (rightEdge θ w h pitch 0) := by
  unfold shadowOf leftEdge rightEdge
  constructor <;> push_cast <;> ring

private theorem overlap_volume (c d a b : ℝ) :
    volume (Set.uIcc c d ∩ Set.Icc a b) = ENNReal.ofReal (overlap (min c d) (max c d) a b) := by
  rw [Set.uIcc, Set.Icc_inter_Icc, Real.volume_Icc]
  unfold overlap
  change ENNReal.ofReal (min (max c d) b - max (min c d) a) = _
  by_cases h : 0 ≤ min (max c d) b - max (min c d) a
  · rw [max_eq_right h]
  · push Not at h
    rw [max_eq_left h.le, ENNReal.ofReal_of_nonpos h.le, ENNReal.ofReal_zero]

theorem sum_volume (l : List ℤ) (f : ℤ → ℝ) (hf : ∀ k, 0 ≤ f k) :
    ENNReal.ofReal ((l.map f).sum) = (l.map fun k => ENNReal.ofReal (f k)).sum := by
  induction l with
  | nil => simp
  | cons k l ih =>
    rw [List.map_cons, List.sum_cons, List.map_cons, List.sum_cons, ← ih, ENNReal.ofReal_add (hf k)]
    refine List.sum_nonneg ?_
    intro x hx
    rw [List.mem_map] at hx
    obtain ⟨j, -, rfl⟩ := hx
    exact hf j

/-- **C125b.** With enough rows on both sides (every row whose shadow reaches the segment is among those summed),
the result is exactly the fraction of the ground segment that no row, of infinitely many, shades - also when the
shadows overlap. -/
theorem fraction_exact (θ φ gcr h pitch mz g0 g1 : ℝ) (n : ℤ) (hp : 0 < pitch) (hg : g0 < g1)
    (hφ : Real.cos (φ * (π / 180)) ≠ 0) (hz : |φ| ≤ mz)
    (hn : ∀ k : ℤ, (shadow θ φ (pitch * gcr) h pitch k ∩ Set.Icc (g0 * pitch) (g1 * pitch)).Nonempty →
      -n ≤ k ∧ k ≤ n + 1) :
    unshadedGround (fin θ) (fin φ) (fin gcr) (fin h) (fin pitch) n (fin mz) (fin g0) (fin g1) =
      fin ((volume (Set.Icc (g0 * pitch) (g1 * pitch) \ ⋃ k : ℤ, shadow θ φ (pitch * gcr) h pitch k)).toReal /
        (g1 * pitch - g0 * pitch)) := by
  rw [unshaded_fin θ φ gcr h pitch mz g0 g1 n hp hg hφ hz, fin_inj]
  have hab : g0 * pitch < g1 * pitch := mul_lt_mul_of_pos_right hg hp
  set a := g0 * pitch with ha
  set b := g1 * pitch with hb
  set w := pitch * gcr with hw
  have hpos : 0 < b - a := by linarith
  set l := arange (-n) (n + 2) with hl
  set S := fun k : ℤ => shadow θ φ w h pitch k ∩ Set.Icc a b with hS
  have hvol : ∀ k, volume (S k) = ENNReal.ofReal (part θ φ w h pitch a b k) := fun k => overlap_volume _ _ a b
  have hpart : ∀ k, 0 ≤ part θ φ w h pitch a b k := fun k => overlap_nonneg _ _ _ _
  set T := ((arange (-n) (n + 2)).map fun k => part θ φ w h pitch a b k).sum with hT
  have hT0 : 0 ≤ T := by
    refine List.sum_nonneg ?_
    intro x hx
    rw [List.mem_map] at hx
    obtain ⟨k, -, rfl⟩ := hx
    exact hpart k
  have hmeas : ∀ k, MeasurableSet (S k) := fun k => measurableSet_Icc.inter measurableSet_Icc
  -- the shaded part is the union over the finitely many rows
  have hU : Set.Icc a b ∩ (⋃ k : ℤ, shadow θ φ w h pitch k) = ⋃ k ∈ l.toFinset, S k := by
    ext x
    simp only [Set.mem_inter_iff, Set.mem_iUnion, List.mem_toFinset, hS, exists_prop]
    constructor
    · rintro ⟨hx, k, hk⟩
      refine ⟨k, ?_, hk, hx⟩
      rw [hl, mem_arange]
      have := hn k ⟨x, hk, hx⟩
      omega
    · rintro ⟨k, -, hk, hx⟩
      exact ⟨hx, k, hk⟩
  have hsumE : (∑ k ∈ l.toFinset, volume (S k)) = ENNReal.ofReal T := by
    rw [hT, sum_volume _ _ hpart, ← List.sum_toFinset _ (nodup_arange _ _)]
    exact Finset.sum_congr rfl fun k _ => hvol k
  have hdiff : volume (Set.Icc a b \ ⋃ k : ℤ, shadow θ φ w h pitch k) =
      volume (Set.Icc a b) - volume (⋃ k ∈ l.toFinset, S k) := by
    rw [← Set.sdiff_self_inter, hU]
    have hsub : (⋃ k ∈ l.toFinset, S k) ⊆ Set.Icc a b := by
      rw [← hU]; exact Set.inter_subset_left
    refine measure_sdiff hsub ?_ ?_
    · exact (Finset.measurableSet_biUnion _ fun k _ => hmeas k).nullMeasurableSet
    · refine ne_top_of_le_ne_top ?_ (measure_mono hsub)
      rw [Real.volume_Icc]; exact ENNReal.ofReal_ne_top
  set A := shadowOf φ (leftEdge θ w h pitch 0) with hA
  set B := shadowOf φ (rightEdge θ w h pitch 0) with hB
  have hsh : ∀ k : ℤ, shadow θ φ w h pitch k = Set.Icc (k * pitch + min A B) (k * pitch + max A B) := by
    intro k
    unfold shadow
    rw [(shadow_shift θ φ w h pitch k).1, (shadow_shift θ φ w h pitch k).2, Set.uIcc]
    rw [min_add_add_left, max_add_add_left]
  by_cases hover : max A B - min A B ≤ pitch
  · -- shadows do not overlap
    have hdis : (l.toFinset : Set ℤ).Pairwise (Function.onFun (AEDisjoint volume) S) := by
      intro i _ j _ hij
      have key : ∀ i j : ℤ, i < j → AEDisjoint volume (S i) (S j) := by
        intro i j hlt
        have hsub : S i ∩ S j ⊆ {i * pitch + max A B} := by
          rintro x ⟨⟨h1, -⟩, ⟨h2, -⟩⟩
          rw [hsh, Set.mem_Icc] at h1 h2
          have : (i : ℝ) + 1 ≤ j := by exact_mod_cast hlt
          have := mul_le_mul_of_nonneg_right this hp.le
          rw [Set.mem_singleton_iff]
          linarith [h1.2, h2.1]
        exact measure_mono_null hsub (by simp)
      rcases lt_or_gt_of_ne hij with h | h
      · exact key i j h
      · exact (key j i h).symm
    have hun : volume (⋃ k ∈ l.toFinset, S k) = ENNReal.ofReal T := by
      rw [measure_biUnion_finset₀ hdis fun k _ => (hmeas k).nullMeasurableSet, hsumE]
    have hTle : T ≤ b - a := by
      have : volume (⋃ k ∈ l.toFinset, S k) ≤ volume (Set.Icc a b) := by
        rw [← hU]; exact measure_mono Set.inter_subset_left
      rw [hun, Real.volume_Icc] at this
      exact (ENNReal.ofReal_le_ofReal_iff hpos.le).mp this
    rw [hdiff, hun, Real.volume_Icc, ← ENNReal.ofReal_sub _ hT0, ENNReal.toReal_ofReal (by linarith),
      min_eq_right (by rw [div_le_one hpos]; exact hTle), sub_div, div_self hpos.ne']
  · -- shadows cover everything
    push Not at hover
    have hall : (⋃ k : ℤ, shadow θ φ w h pitch k) = Set.univ := by
      rw [Set.eq_univ_iff_forall]
      intro x
      rw [Set.mem_iUnion]
      refine ⟨⌊(x - min A B) / pitch⌋, ?_⟩
      rw [hsh, Set.mem_Icc]
      have h1 := Int.floor_le ((x - min A B) / pitch)
      have h2 := Int.lt_floor_add_one ((x - min A B) / pitch)
      rw [le_div_iff₀ hp] at h1
      rw [div_lt_iff₀ hp] at h2
      constructor <;> linarith
    have hTge : b - a ≤ T := by
      have : volume (Set.Icc a b) ≤ ENNReal.ofReal T := by
        rw [← hsumE]
        refine le_trans (measure_mono ?_) (measure_biUnion_finset_le _ _)
        rw [← hU, hall, Set.inter_univ]
      rw [Real.volume_Icc] at this
      exact (ENNReal.ofReal_le_ofReal_iff hT0).mp this
    rw [hall, Set.sdiff_univ, measure_empty, min_eq_left (by rw [le_div_iff₀ hpos]; linarith)]
    simp

/-- **C125b.** The same for a part of the ground through the entry point, which keeps the given height and pitch. -/
theorem fraction_part (θ φ gcr h pitch mz g0 g1 : ℝ) (n : ℤ) (hp : 0 < pitch) (hg : g0 < g1) (hw : ¬ (g0 = 0 ∧ g1 = 1))
    (hφ : Real.cos (φ * (π / 180)) ≠ 0) (hz : |φ| ≤ mz)
    (hn : ∀ k : ℤ, (shadow θ φ (pitch * gcr) h pitch k ∩ Set.Icc (g0 * pitch) (g1 * pitch)).Nonempty → -n ≤ k ∧ k ≤ n + 1) :
    unshadedGroundFraction (fin θ) (fin φ) (fin gcr) (fin h) (fin pitch) n (fin mz) (fin g0) (fin g1) =
      fin ((volume (Set.Icc (g0 * pitch) (g1 * pitch) \ ⋃ k : ℤ, shadow θ φ (pitch * gcr) h pitch k)).toReal /
        (g1 * pitch - g0 * pitch)) := by
  unfold unshadedGroundFraction
  rw [if_neg (by rw [zero_eq, one_eq, fin_inj, fin_inj]; exact hw)]
  exact fraction_exact θ φ gcr h pitch mz g0 g1 n hp hg hφ hz hn

example := fraction_part 0 0 (1/2) 1 2 85 0 (1/2) 1 (by norm_num) (by norm_num) (by norm_num) (by norm_num) (by norm_num) (by
  rintro k ⟨x, hx, hx2⟩
  simp only [shadow, shadowOf, leftEdge, rightEdge, zero_mul, Real.tan_zero, Real.cos_zero, mul_zero, add_zero, Set.mem_uIcc,
    Set.mem_Icc] at hx hx2
  have h1 : (-1 : ℝ) < k := by rcases hx with hx | hx <;> linarith [hx.1, hx.2, hx2.1, hx2.2]
  have h2 : (k : ℝ) < 2 := by rcases hx with hx | hx <;> linarith [hx.1, hx.2, hx2.1, hx2.2]
  have h3 : -1 < k := by exact_mod_cast h1
  have h4 : k < 2 := by exact_mod_cast h2
  omega)

/-! ### Closed form for the whole ground -/

private theorem overlap_split (lo hi a b c : ℝ) (h : lo ≤ hi) (h1 : a ≤ b) (h2 : b ≤ c) :
    overlap lo hi a b + overlap lo hi b c = overlap lo hi a c := by
  unfold overlap
  rcases le_total lo a with p1 | p1 <;> rcases le_total lo b with p2 | p2 <;> rcases le_total hi b with p3 | p3 <;>
    rcases le_total hi c with p4 | p4 <;>
    simp only [p1, p2, p3, p4, max_eq_left, max_eq_right, min_eq_left, min_eq_right] <;>
    (simp only [max_def]; split_ifs <;> linarith)

private theorem overlap_translate (lo hi a b s : ℝ) : overlap (s + lo) (s + hi) a b = overlap lo hi (a - s) (b - s) := by
  unfold overlap
  congr 1
  rw [show b = s + (b - s) by ring, show a = s + (a - s) by ring, min_add_add_left, max_add_add_left]
  simp

private theorem sum_overlap (lo hi p : ℝ) (hp : 0 < p) (h : lo ≤ hi) (m : ℤ) (j : ℕ) :
    ((arange m (m + j)).map fun k : ℤ => overlap lo hi (0 - k * p) (p - k * p)).sum =
      if j = 0 then 0 else overlap lo hi ((1 - (m + j : ℤ) : ℝ) * p) ((1 - m : ℝ) * p) := by
  induction j with
  | zero => simp [arange]
  | succ j ih =>
    rw [show m + ((j + 1 : ℕ) : ℤ) = (m + j) + 1 by push_cast; ring, arange_succ _ _ (by omega), List.map_append, List.sum_append, ih]
    simp only [List.map_cons, List.map_nil, List.sum_cons, List.sum_nil, add_zero, Nat.succ_ne_zero, if_false]
    by_cases hj : j = 0
    · subst hj
      simp only [if_true, zero_add]
      congr 1 <;> push_cast <;> ring
    · rw [if_neg hj]
      have hj1 : (1 : ℝ) ≤ j := by exact_mod_cast Nat.one_le_iff_ne_zero.mpr hj
      have e1 : (p - ((m + (j:ℤ) : ℤ) : ℝ) * p) = (1 - ((m + (j:ℤ) : ℤ) : ℝ)) * p := by ring
      have e2 : (0 - ((m + (j:ℤ) : ℤ) : ℝ) * p) = (1 - ((m + (j:ℤ) + 1 : ℤ) : ℝ)) * p := by push_cast; ring
      rw [e1, e2, add_comm]
      refine overlap_split lo hi _ _ _ h ?_ ?_
      · refine mul_le_mul_of_nonneg_right ?_ hp.le; push_cast; linarith
      · refine mul_le_mul_of_nonneg_right ?_ hp.le; push_cast; linarith

/-- The illuminated fraction of the whole ground for any number of rows: the shadow of one row, of length
`|cos θ + sin θ tan φ|` row widths, counts as far as it lies within `n + 1` pitches on either side. -/
theorem fraction_formula (θ φ gcr h pitch : ℝ) (n : ℤ) (hg : 0 < gcr) (hn0 : 0 ≤ n)
    (hφ : Real.cos (φ * (π / 180)) ≠ 0) (hz : |φ| ≤ 85) :
    unshadedGroundFraction (fin θ) (fin φ) (fin gcr) (fin h) (fin pitch) n =
      fin (max 0 (1 - gcr * overlap
        (Real.tan (φ * (π / 180)) - |Real.cos (θ * (π / 180)) + Real.sin (θ * (π / 180)) * Real.tan (φ * (π / 180))| / 2)
        (Real.tan (φ * (π / 180)) + |Real.cos (θ * (π / 180)) + Real.sin (θ * (π / 180)) * Real.tan (φ * (π / 180))| / 2)
        (-(n + 1) * (1 / gcr)) ((n + 1) * (1 / gcr)))) := by
  set C := Real.cos (θ * (π / 180))
  set s := Real.sin (θ * (π / 180))
  set t := Real.tan (φ * (π / 180)) with ht
  have hp : 0 < 1 / gcr := by positivity
  unfold unshadedGroundFraction
  rw [if_pos ⟨rfl, rfl⟩]
  have h1 : (1 : Fl) / fin gcr = fin (1 / gcr) := by rw [one_eq, fin_div hg.ne']
  rw [h1, show (1 : Fl) = fin 1 from rfl, show (0 : Fl) = fin 0 from rfl, show (85 : Fl) = fin 85 from rfl]
  rw [unshaded_fin θ φ gcr 1 (1 / gcr) 85 0 1 n hp (by norm_num) hφ hz, fin_inj]
  have hw : 1 / gcr * gcr = 1 := by field_simp
  rw [hw]
  set A := shadowOf φ (leftEdge θ 1 1 (1 / gcr) 0) with hA
  set B := shadowOf φ (rightEdge θ 1 1 (1 / gcr) 0) with hB
  have hAe : A = t - (C + s * t) / 2 := by
    rw [hA]; unfold shadowOf leftEdge; dsimp only; rw [← ht]; push_cast; ring
  have hBe : B = t + (C + s * t) / 2 := by
    rw [hB]; unfold shadowOf rightEdge; dsimp only; rw [← ht]; push_cast; ring
  have hmm : max A B = t + |C + s * t| / 2 ∧ min A B = t - |C + s * t| / 2 := by
    rcases le_total 0 (C + s * t) with hs | hs
    · rw [abs_of_nonneg hs, hAe, hBe, max_eq_right (by linarith), min_eq_left (by linarith)]; exact ⟨rfl, rfl⟩
    · rw [abs_of_nonpos hs, hAe, hBe, max_eq_left (by linarith), min_eq_right (by linarith)]
      constructor <;> ring
  have hsum : ((arange (-n) (n + 2)).map fun k => part θ φ 1 1 (1 / gcr) (0 * (1 / gcr)) (1 * (1 / gcr)) k).sum =
      overlap (t - |C + s * t| / 2) (t + |C + s * t| / 2) (-(n + 1) * (1 / gcr)) ((n + 1) * (1 / gcr)) := by
    have e : ∀ k : ℤ, part θ φ 1 1 (1 / gcr) (0 * (1 / gcr)) (1 * (1 / gcr)) k =
        overlap (min A B) (max A B) (0 - k * (1 / gcr)) (1 / gcr - k * (1 / gcr)) := by
      intro k
      unfold part
      rw [(shadow_shift θ φ 1 1 (1 / gcr) k).1, (shadow_shift θ φ 1 1 (1 / gcr) k).2, min_add_add_left, max_add_add_left,
        overlap_translate, zero_mul, one_mul]
    simp only [e]
    rw [show n + 2 = -n + ((2 * n + 2).toNat : ℕ) by omega, sum_overlap _ _ _ hp min_le_max, if_neg (by omega)]
    have e3 : ((1 - (-n + ((2 * n + 2).toNat : ℕ) : ℤ) : ℝ)) = -(n + 1) := by
      rw [show -n + ((2 * n + 2).toNat : ℤ) = n + 2 by omega]; push_cast; ring
    rw [e3, hmm.1, hmm.2]
    congr 1
    push_cast; ring
  rw [hsum]
  have e4 : 1 * (1 / gcr) - 0 * (1 / gcr) = 1 / gcr := by ring
  rw [e4, div_div_eq_mul_div, div_one, mul_comm, ← max_sub_sub_left, sub_self, mul_comm]

example := fraction_formula 30 45 0.5 2 4 10 (by norm_num) (by norm_num) (Spec.cosDeg_ne_of (by norm_num) (by norm_num)) (by norm_num [abs_of_pos])

/-- **C125c.** The whole ground (the default): the illuminated fraction is `1 - gcr |cos θ + sin θ tan φ|`, or 0 where
that is negative, if enough rows are taken. -/
theorem fraction_closed_form (θ φ gcr h pitch : ℝ) (n : ℤ) (hg : 0 < gcr) (hn0 : 0 ≤ n)
    (hφ : Real.cos (φ * (π / 180)) ≠ 0) (hz : |φ| ≤ 85)
    (hn : gcr * (|Real.tan (φ * (π / 180))| +
      |Real.cos (θ * (π / 180)) + Real.sin (θ * (π / 180)) * Real.tan (φ * (π / 180))| / 2) ≤ n + 1) :
    unshadedGroundFraction (fin θ) (fin φ) (fin gcr) (fin h) (fin pitch) n =
      fin (max 0 (1 - gcr * |Real.cos (θ * (π / 180)) + Real.sin (θ * (π / 180)) * Real.tan (φ * (π / 180))|)) := by
  rw [fraction_formula θ φ gcr h pitch n hg hn0 hφ hz, fin_inj]
  set C := Real.cos (θ * (π / 180))
  set s := Real.sin (θ * (π / 180))
  set t := Real.tan (φ * (π / 180)) with ht
  have hb : |t| + |C + s * t| / 2 ≤ (n + 1) * (1 / gcr) := by
    rw [mul_one_div, le_div_iff₀ hg, mul_comm]; exact hn
  have hat := abs_le.mp (le_refl |t|)
  unfold overlap
  have hm1 : max (t - |C + s * t| / 2) (-(n + 1) * (1 / gcr)) = t - |C + s * t| / 2 := max_eq_left (by linarith [hat.1])
  rw [min_eq_left (by linarith [hat.2]), hm1,
    show t + |C + s * t| / 2 - (t - |C + s * t| / 2) = |C + s * t| by ring, max_eq_right (abs_nonneg (C + s * t))]

/-- The closed form at a concrete case: rows at 30°, half the ground covered, sun at 45°. -/
example : unshadedGroundFraction 30 45 0.5 2 4 = fin (1 - (Real.sqrt 3 + 1) / 4) := by
  have h30 : (30:ℝ) * (π / 180) = π / 6 := by ring
  have h45 : (45:ℝ) * (π / 180) = π / 4 := by ring
  have := fraction_closed_form 30 45 (1/2) 2 4 10 (by norm_num) (by norm_num)
    (by rw [h45, Real.cos_pi_div_four]; positivity) (by norm_num [abs_le]) (by
      rw [h45, h30, Real.tan_pi_div_four, Real.cos_pi_div_six, Real.sin_pi_div_six,
        abs_of_pos one_pos, abs_of_pos (by positivity)]
      have : Real.sqrt 3 ≤ 2 := by rw [Real.sqrt_le_left (by norm_num)]; norm_num
      norm_num; linarith)
  have e : (0.5 : Fl) = fin (1/2) := by rw [Fl.ofScientific_eq]; norm_num
  have h3 : Real.sqrt 3 ≤ 2 := by rw [Real.sqrt_le_left (by norm_num)]; norm_num
  rw [e]
  refine Eq.trans this ?_
  rw [h45, h30, Real.tan_pi_div_four, Real.cos_pi_div_six, Real.sin_pi_div_six, abs_of_pos (by positivity), fin_inj,
    max_eq_right (by linarith)]
  ring

/-- Finding: the default of ten rows is too few for dense rows and a low sun.  Horizontal rows that touch each other
(`gcr = 1`) shade the whole ground, but with the sun at `arctan 11.4` (below the 85° cut-off) nine tenths are said to
be illuminated. -/
theorem default_rows_too_few (h pitch : ℝ) :
    ∃ φ : ℝ, 0 < φ ∧ φ < 85 ∧
      unshadedGroundFraction 0 (fin φ) 1 (fin h) (fin pitch) = fin 0.9 := by
  have hpi := Real.pi_gt_d6
  have hpi2 := Real.pi_lt_d6
  have hx : Real.arctan 11.4 * 180 / π * (π / 180) = Real.arctan 11.4 := by
    field_simp
  have hlt : Real.arctan 11.4 < 85 * (π / 180) := by
    have h1 : Real.arctan (Real.tan (85 * (π / 180))) = 85 * (π / 180) :=
      Real.arctan_tan (by linarith) (by linarith)
    rw [← h1]
    apply Real.arctan_strictMono
    rw [show 85 * (π / 180) = π / 2 - π / 36 by ring, Real.tan_pi_div_two_sub, Real.tan_eq_sin_div_cos, inv_div]
    have hs : Real.sin (π / 36) < π / 36 := Real.sin_lt (by positivity)
    have hs0 : 0 < Real.sin (π / 36) := Real.sin_pos_of_pos_of_lt_pi (by positivity) (by linarith)
    have hc : 1 - (π / 36) ^ 2 / 2 ≤ Real.cos (π / 36) := Real.one_sub_sq_div_two_le_cos
    rw [lt_div_iff₀ hs0]
    have : (π / 36) ^ 2 ≤ (3.141593 / 36) ^ 2 := by
      apply pow_le_pow_left₀ (by positivity); linarith
    norm_num at this ⊢
    linarith
  refine ⟨Real.arctan 11.4 * 180 / π, ?_, ?_, ?_⟩
  · have : 0 < Real.arctan 11.4 := Real.arctan_pos.mpr (by norm_num)
    positivity
  · rw [div_lt_iff₀ (by positivity)]; linarith
  · have hpos : 0 < Real.arctan 11.4 := Real.arctan_pos.mpr (by norm_num)
    have := fraction_formula 0 (Real.arctan 11.4 * 180 / π) 1 h pitch 10 one_pos (by norm_num)
      (by rw [hx]; exact (Real.cos_arctan_pos _).ne') (by
        rw [abs_of_nonneg (by positivity), div_le_iff₀ (by positivity)]; linarith)
    refine Eq.trans this ?_
    rw [hx, Real.tan_arctan, fin_inj]
    unfold overlap
    norm_num

/-- The hypothesis of the closed form holds for the default ten rows and every ground coverage up to 0.6. -/
theorem default_rows_enough (θ φ gcr : ℝ) (hg : 0 < gcr) (hg2 : gcr ≤ 0.6) (hz : |φ| ≤ 85) :
    Real.cos (φ * (π / 180)) ≠ 0 ∧
    gcr * (|Real.tan (φ * (π / 180))| +
      |Real.cos (θ * (π / 180)) + Real.sin (θ * (π / 180)) * Real.tan (φ * (π / 180))| / 2) ≤ (10 : ℤ) + 1 := by
  have hpi := Real.pi_gt_d6
  have hpi2 := Real.pi_lt_d6
  set x := φ * (π / 180) with hx
  have hb := abs_le.mp hz
  have hx1 : |x| ≤ π / 2 - π / 36 := by
    rw [hx, abs_mul, abs_of_pos (by positivity : 0 < π / 180)]
    calc |φ| * (π / 180) ≤ 85 * (π / 180) := mul_le_mul_of_nonneg_right hz (by positivity)
      _ = π / 2 - π / 36 := by ring
  have hc : Real.sin (π / 36) ≤ Real.cos x := by
    rw [← Real.cos_abs, ← Real.cos_pi_div_two_sub]
    exact Real.cos_le_cos_of_nonneg_of_le_pi (abs_nonneg x) (by linarith) hx1
  have hs5 : 0.0871 < Real.sin (π / 36) := by
    have := Real.sin_gt_sub_cube (x := π / 36) (by positivity)
    have h3 : (π / 36) ^ 3 ≤ (3.141593 / 36) ^ 3 := by
      apply pow_le_pow_left₀ (by positivity); linarith
    norm_num at h3 ⊢
    linarith
  have hcpos : 0.0871 < Real.cos x := lt_of_lt_of_le hs5 hc
  refine ⟨by norm_num at hcpos; linarith, ?_⟩
  have hcp : 0 < Real.cos x := by norm_num at hcpos; linarith
  have hq : 1 / Real.cos x < 11.49 := by
    rw [div_lt_iff₀ hcp]
    norm_num at hcpos ⊢; linarith
  have htan : |Real.tan x| ≤ 1 / Real.cos x := by
    rw [Real.tan_eq_sin_div_cos, abs_div, abs_of_pos hcp]
    exact div_le_div_of_nonneg_right (Real.abs_sin_le_one x) hcp.le
  have hcomb : |Real.cos (θ * (π / 180)) + Real.sin (θ * (π / 180)) * Real.tan x| ≤ 1 / Real.cos x := by
    have : Real.cos (θ * (π / 180)) + Real.sin (θ * (π / 180)) * Real.tan x =
        Real.cos (x - θ * (π / 180)) / Real.cos x := by
      rw [Real.cos_sub, Real.tan_eq_sin_div_cos]; field_simp
    rw [this, abs_div, abs_of_pos hcp]
    exact div_le_div_of_nonneg_right (Real.abs_cos_le_one _) hcp.le
  calc gcr * (|Real.tan x| + |Real.cos (θ * (π / 180)) + Real.sin (θ * (π / 180)) * Real.tan x| / 2)
      ≤ gcr * (11.49 + 11.49 / 2) := by
        refine mul_le_mul_of_nonneg_left ?_ hg.le; linarith
    _ ≤ 0.6 * (11.49 + 11.49 / 2) := mul_le_mul_of_nonneg_right hg2 (by norm_num)
    _ ≤ _ := by norm_num

example := default_rows_enough 30 45 0.5 (by norm_num) (by norm_num) (by norm_num [abs_of_pos])

/-- A missing sun position is taken for a fully shaded ground. -/
theorem fraction_nan (θ gcr h pitch mz g0 g1 : Fl) (n : ℤ) (hn : 0 ≤ n) :
    unshadedGround θ nan gcr h pitch n mz g0 g1 = 0 := by
  unfold unshadedGround
  dsimp only
  have h1 : ∀ k : ℤ, shadowPart (fin k * pitch + 0.5 * (pitch * gcr * cosd θ) + (h + 0.5 * (pitch * gcr * sind θ)) * tand nan)
      (fin k * pitch - 0.5 * (pitch * gcr * cosd θ) + (h - 0.5 * (pitch * gcr * sind θ)) * tand nan) (g0 * pitch) (g1 * pitch) =
      fin 1 := by
    intro k
    have ht : tand nan = nan := rfl
    rw [ht]
    simp only [mul_nan, add_nan]
    unfold shadowPart
    simp [npwhere]
  simp only [h1]
  rw [npwhere_neg (by simp)]
  have h2 : ((arange (-n) (n + 2)).map fun _ : ℤ => fin 1) = ((arange (-n) (n + 2)).map fun _ : ℤ => (1:ℝ)).map fin := by
    rw [List.map_map]; rfl
  rw [h2, sum_fin, zero_eq, one_eq]
  unfold clip
  rw [maximum_fin, minimum_fin, fin_sub, fin_inj]
  have h3 : ((arange (-n) (n + 2)).map fun _ : ℤ => (1:ℝ)).sum = (2 * n + 2 : ℤ) := by
    rw [List.map_const', List.sum_replicate, nsmul_eq_mul, mul_one]
    unfold arange
    rw [List.length_map, List.length_range]
    have : ((n + 2 - -n).toNat : ℤ) = 2 * n + 2 := by omega
    exact_mod_cast this
  have h4 : (0:ℝ) ≤ n := by exact_mod_cast hn
  rw [h3, max_eq_left (by push_cast; linarith), min_eq_right (by push_cast; linarith), sub_self]

example := fraction_nan (fin 30) (fin 0.5) (fin 2) (fin 4) (fin 85) (fin 0) (fin 1) 10 (by norm_num)

end Pvlib.Props.BifacialShadow
end
