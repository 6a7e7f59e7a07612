import Verif.Props.Scaling
import Mathlib.Algebra.BigOperators.Group.Finset.Basic
import Mathlib.Order.Interval.Finset.Nat
import Mathlib.Data.Int.Interval

/-! # Property C230: what the wavelet variability model computes -/

noncomputable section
open scoped Classical
namespace Pvlib.Props.Wavelet
open Fl Pvlib.Scaling Pvlib.Props.Scaling

/-! ### Specification (Lave et al. 2013, with the window of the code) -/

/-- The signal continued on both sides by its mirror image, for sample numbers from `-n` to `2n - 1`. -/
def mirror (f : ℕ → ℝ) (n : ℕ) (k : ℤ) : ℝ :=
  if k < 0 then f (-1 - k).toNat else if k < n then f k.toNat else f (2 * n - 1 - k).toNat

/-- The sample numbers averaged for sample `j` at half width `h`: `h - 1` before it, itself and `h` after it, as far as there is a continued signal. -/
def window (n h j : ℕ) : Finset ℤ := Finset.Icc (max (-n) (j + 1 - h)) (min (2 * n - 1) (j + h))

/-- The average over the `2^i` samples around sample `j`; the sample itself for `i = 0`. -/
def average (f : ℕ → ℝ) (n i j : ℕ) : ℝ :=
  if i = 0 then f j else (∑ k ∈ window n (2 ^ (i - 1)) j, mirror f n k) / (window n (2 ^ (i - 1)) j).card

/-- Number of scales: 13 less the power of two that is not below the time step. -/
def scales (dt : ℝ) : ℕ := (13 - ⌈Real.log dt / Real.log 2⌉).toNat

/-- Mode `i` of `M`: what the next coarser average lacks; the last is the coarsest average. -/
def mode (f : ℕ → ℝ) (n M i j : ℕ) : ℝ := if i < M - 1 then average f n i j - average f n (i + 1) j else average f n (M - 1) j

/-- Variability reduction among `N` sites at pairwise distances `dist` for clouds of speed `v` on the time scale `t`: correlation falls with distance over `v t / 2`. -/
def reduction (dist : List ℝ) (N v t : ℝ) : ℝ := N ^ 2 / (N + 2 * (dist.map fun d => Real.exp (-d / (v / 2 * t))).sum)

/-! ### Averages -/

/-- The continued signal, by positions in the padded array. -/
private theorem pad_eq (n : ℕ) (vals : Series) (f : ℕ → ℝ) (hv : ∀ k < n, vals k = fin (f k)) (k : ℕ) (hk : k < 3 * n) :
    padSymmetric n vals k = fin (mirror f n ((k : ℤ) - n)) := by
  unfold padSymmetric mirror
  by_cases h1 : k < n
  · rw [if_pos h1, if_pos (by omega), hv _ (by omega)]
    congr 2; omega
  · rw [if_neg h1, if_neg (show ¬ ((k : ℤ) - n < 0) by omega)]
    by_cases h2 : k < 2 * n
    · rw [if_pos h2, if_pos (by omega), hv _ (by omega)]
      congr 2; omega
    · rw [if_neg h2, if_neg (by omega), hv _ (by omega)]
      congr 2; omega

private theorem bfill_eq (N : ℕ) (x : Series) (f : ℕ → ℝ) (hx : ∀ k < N, x k = fin (f k)) (j : ℕ) (hj : j < N) : bfill N x j = fin (f j) := by
  have hf : ((List.range N).filter fun k => decide (j ≤ k ∧ ¬ isnan (x k))).head? = some j := by
    rw [List.head?_filter, List.find?_range_eq_some]
    refine ⟨by simp [hx j hj], by simp [hj], ?_⟩
    intro k hk
    simp only [Bool.not_eq_eq_eq_not, Bool.not_true, decide_eq_false_iff_not, not_and]
    intro h; omega
  rw [bfill, hf]
  exact hx j hj

private theorem roll_eq (n w : ℕ) (hw : 0 < w) (vals : Series) (f : ℕ → ℝ) (hv : ∀ k < n, vals k = fin (f k)) (p : ℕ) (hp : p < 3 * n) :
    ∃ S : Finset ℕ, (∀ k, k ∈ S ↔ k < 3 * n ∧ k ≤ p + (w - 1) / 2 ∧ p + (w - 1) / 2 < k + w) ∧
      rollMean (3 * n) w (padSymmetric n vals) p = fin ((∑ k ∈ S, mirror f n ((k : ℤ) - n)) / S.card) := by
  have hx := pad_eq n vals f hv
  set l := rollIdx (3 * n) w (padSymmetric n vals) p with hl
  have hmem : ∀ k, k ∈ l ↔ k < 3 * n ∧ k ≤ p + (w - 1) / 2 ∧ p + (w - 1) / 2 < k + w := by
    intro k
    rw [hl]
    simp only [rollIdx, List.mem_filter, List.mem_range, decide_eq_true_eq]
    constructor
    · rintro ⟨a, b, c, -⟩; exact ⟨a, b, c⟩
    · rintro ⟨a, b, c⟩; exact ⟨a, b, c, by rw [hx k a]; simp⟩
  have hnd : l.Nodup := by
    rw [hl]
    exact List.nodup_range.filter _
  have hne : l ≠ [] := List.ne_nil_of_mem ((hmem p).mpr ⟨hp, by omega, by omega⟩)
  have hlen : (l.length : ℝ) ≠ 0 := by simpa using hne
  refine ⟨l.toFinset, fun k => by rw [List.mem_toFinset]; exact hmem k, ?_⟩
  have e : l.map (padSymmetric n vals) = (l.map fun k : ℕ => mirror f n ((k : ℤ) - n)).map fin := by
    rw [List.map_map]
    exact List.map_congr_left fun k hk => hx k ((hmem k).mp hk).1
  unfold rollMean
  rw [if_neg hne, e, sum_fin, fin_div hlen, List.sum_toFinset _ hnd, List.toFinset_card_of_nodup hnd]

/-- The average of the code at scale `i` is the average over the window. -/
theorem average_eq (n : ℕ) (vals : Series) (f : ℕ → ℝ) (hv : ∀ k < n, vals k = fin (f k)) (i j : ℕ) (hj : j < n) :
    csiMean n vals i (n + j) = fin (average f n i j) := by
  unfold csiMean average
  by_cases hi : i = 0
  · rw [if_pos hi, if_pos hi, pad_eq n vals f hv _ (by omega)]
    unfold mirror
    rw [if_neg (by omega), if_pos (by omega)]
    congr 2; omega
  · rw [if_neg hi, if_neg hi]
    obtain ⟨h, hh⟩ : ∃ h, (2 : ℕ) ^ (i - 1) = h := ⟨_, rfl⟩
    have h1 : 1 ≤ h := hh ▸ Nat.one_le_two_pow
    have hw : (2 : ℕ) ^ i = 2 * h := by
      rw [← hh]
      conv_lhs => rw [show i = i - 1 + 1 by omega]
      rw [Nat.pow_succ']
    rw [hw, hh]
    choose S hS hS' using roll_eq n (2 * h) (by omega) vals f hv
    have hm : ∀ p (hp : p < 3 * n), rollMean (3 * n) (2 * h) (padSymmetric n vals) p =
        fin (if hp : p < 3 * n then (∑ k ∈ S p hp, mirror f n ((k : ℤ) - n)) / (S p hp).card else 0) := fun p hp => by rw [dif_pos hp, hS' p hp]
    have hb := bfill_eq (3 * n) _ _ hm
    unfold shiftLast
    rw [if_neg (by omega), Nat.mod_eq_of_lt (by omega)]
    have hp : n + j + 1 < 3 * n := by omega
    have hff : Series.ffill (bfill (3 * n) (rollMean (3 * n) (2 * h) (padSymmetric n vals))) (n + j + 1) =
        bfill (3 * n) (rollMean (3 * n) (2 * h) (padSymmetric n vals)) (n + j + 1) := by
      rw [Series.ffill, if_neg]
      rw [hb _ hp]; simp
    rw [hff, hb _ hp, dif_pos hp, fin_inj]
    have key : ∀ k : ℕ, k ∈ S (n + j + 1) hp ↔ ((k : ℤ) - n) ∈ window n h j := by
      intro k
      rw [hS]
      unfold window
      rw [Finset.mem_Icc]
      omega
    have bij : ∑ k ∈ S (n + j + 1) hp, mirror f n ((k : ℤ) - n) = ∑ k ∈ window n h j, mirror f n k := by
      refine Finset.sum_bij (fun k _ => (k : ℤ) - n) (fun k hk => (key k).mp hk) (fun a _ b _ hab => by omega) (fun b hb => ?_) fun _ _ => rfl
      have hb' := hb
      unfold window at hb'
      rw [Finset.mem_Icc] at hb'
      refine ⟨(b + n).toNat, (key _).mpr ?_, ?_⟩
      · rw [show (((b + n).toNat : ℤ) - n) = b by omega]; exact hb
      · show ((b + n).toNat : ℤ) - n = b
        omega
    have card : (S (n + j + 1) hp).card = (window n h j).card := by
      refine Finset.card_bij (fun k _ => (k : ℤ) - n) (fun k hk => (key k).mp hk) (fun a _ b _ hab => by omega) fun b hb => ?_
      have hb' := hb
      unfold window at hb'
      rw [Finset.mem_Icc] at hb'
      refine ⟨(b + n).toNat, (key _).mpr ?_, ?_⟩
      · rw [show (((b + n).toNat : ℤ) - n) = b by omega]; exact hb
      · show ((b + n).toNat : ℤ) - n = b
        omega
    rw [bij, card]

/-! ### Variability reduction -/

theorem reduction_eq (dist : List ℝ) {N v t : ℝ} (hN : 0 < N) (hv : 0 < v) (ht : 0 < t) :
    computeVr (dist.map fin) (fin N) (fin v) (fin t) = fin (reduction dist N v t) := by
  have e : (dist.map fin).map (fun d => Fl.exp (-1 / (fin v / 2) * d / fin t)) = (dist.map fun d => Real.exp (-d / (v / 2 * t))).map fin := by
    rw [List.map_map, List.map_map]
    apply List.map_congr_left
    intro d _
    simp only [Function.comp, ofNat_eq, one_eq, neg_fin]
    rw [fin_div (by norm_num), fin_div (by positivity), fin_mul, fin_div ht.ne', exp_fin]
    congr 2; field_simp
  have hs : 0 ≤ (dist.map fun d => Real.exp (-d / (v / 2 * t))).sum :=
    List.sum_nonneg (by intro x hx; obtain ⟨d, -, rfl⟩ := List.mem_map.mp hx; positivity)
  simp only [computeVr]
  rw [e, sum_fin]
  simp only [ofNat_eq, fin_mul, fin_add, fin_pow]
  rw [fin_div (by linarith)]
  unfold reduction
  rw [add_comm N]

/-- Farther sites, slower clouds, shorter times: never less reduction. -/
theorem reduction_mono {dist dist' : List ℝ} (hd : List.Forall₂ (fun d d' => 0 ≤ d ∧ d ≤ d') dist dist') {N v v' t t' : ℝ} (hN : 0 < N) (hv : 0 < v') (hvv : v' ≤ v)
    (ht : 0 < t') (htt : t' ≤ t) : reduction dist N v t ≤ reduction dist' N v' t' := by
  have hs : ∀ (l : List ℝ) (v t : ℝ), 0 ≤ (l.map fun d => Real.exp (-d / (v / 2 * t))).sum := fun l v t =>
    List.sum_nonneg (by intro x hx; obtain ⟨d, -, rfl⟩ := List.mem_map.mp hx; positivity)
  have hc : (dist'.map fun d => Real.exp (-d / (v' / 2 * t'))).sum ≤ (dist.map fun d => Real.exp (-d / (v / 2 * t))).sum := by
    induction hd with
    | nil => simp
    | @cons d d' l l' h _ ih =>
      simp only [List.map_cons, List.sum_cons]
      refine add_le_add (Real.exp_le_exp.mpr ?_) ih
      rw [neg_div, neg_div, neg_le_neg_iff]
      have h1 : 0 < v' / 2 * t' := by positivity
      have h2 : v' / 2 * t' ≤ v / 2 * t := mul_le_mul (by linarith) htt ht.le (by linarith)
      calc d / (v / 2 * t) ≤ d / (v' / 2 * t') := div_le_div_of_nonneg_left h.1 h1 h2
        _ ≤ d' / (v' / 2 * t') := by gcongr; exact h.2
  unfold reduction
  have := hs dist' v' t'
  exact div_le_div_of_nonneg_left (by positivity) (by linarith) (by linarith)

example : reduction [100, 200, 300] 3 10 60 ≤ reduction [150, 200, 400] 3 8 30 :=
  reduction_mono (.cons (by norm_num) (.cons (by norm_num) (.cons (by norm_num) .nil))) (by norm_num) (by norm_num) (by norm_num) (by norm_num) (by norm_num)

/-! ### The public function -/

private theorem scales_eq (dt : ℝ) : (maxTmscale dt).toNat = scales dt := by
  unfold maxTmscale scales
  rfl

/-- `wvm` of a finite signal: the modes are the differences of averages over windows of 1, 2, 4, … samples of the continued signal; the smoothed signal is their sum, all but
the last divided by the square root of the variability reduction on the time scale of the window. -/
theorem value (n : ℕ) (vals : Series) (f : ℕ → ℝ) (hv : ∀ k < n, vals k = fin (f k)) (dist : List ℝ) {N v dt : ℝ} (hN : 0 < N) (hv0 : 0 < v) (hdt : 0 < dt) (h : dt ≤ 4096) :
    ∃ sm wv, wvm n vals (dist.map fin) (fin N) (fin v) dt = .ok (sm, wv, scales dt) ∧ ∀ j < n,
      (∀ i, wv i j = fin (mode f n (scales dt) i j)) ∧
      sm j = fin (((List.range (scales dt)).map fun i =>
        if i + 1 < scales dt then mode f n (scales dt) i j / √(reduction dist N v (2 ^ i * dt)) else mode f n (scales dt) i j).sum) := by
  have hM := (scales_pos_iff dt hdt).mpr h
  have hw : ∀ i j, j < n → wavelet n (scales dt) vals i j = fin (mode f n (scales dt) i j) := by
    intro i j hj
    unfold wavelet mode
    split_ifs
    · rw [average_eq n vals f hv i j hj, average_eq n vals f hv (i + 1) j hj, fin_sub]
    · exact average_eq n vals f hv _ j hj
  refine ⟨smoothed n (scales dt) vals fun i => computeVr (dist.map fin) (fin N) (fin v) (tmscale (fin dt) i), wavelet n (scales dt) vals, ?_, fun j hj => ⟨fun i => hw i j hj, ?_⟩⟩
  · unfold wvm
    simp only
    rw [if_neg (by omega), if_neg (by omega), scales_eq]
  · have hvr : ∀ i, computeVr (dist.map fin) (fin N) (fin v) (tmscale (fin dt) i) = fin (reduction dist N v (2 ^ i * dt)) := by
      intro i
      have e : tmscale (fin dt) i = fin (2 ^ i * dt) := by
        unfold tmscale
        split_ifs with h0
        · simp [h0]
        · simp
      rw [e, reduction_eq dist hN hv0 (by positivity)]
    have hr : ∀ i, 0 < reduction dist N v (2 ^ i * dt) := by
      intro i
      have hs : 0 ≤ (dist.map fun d => Real.exp (-d / (v / 2 * (2 ^ i * dt)))).sum :=
        List.sum_nonneg (by intro x hx; obtain ⟨d, -, rfl⟩ := List.mem_map.mp hx; positivity)
      unfold reduction
      positivity
    unfold smoothed
    rw [← sum_fin, List.map_map]
    congr 1
    refine List.map_congr_left fun i _ => ?_
    simp only [Function.comp]
    unfold waveletSmooth
    rw [hw i j hj]
    dsimp only
    by_cases hi : i < scales dt - 1
    · rw [if_pos hi, if_pos (by omega), hvr, sqrt_fin (hr i).le, fin_div (Real.sqrt_ne_zero'.mpr (hr i))]
    · rw [if_neg hi, if_neg (by omega)]

/-- Five samples of a passing cloud, two averages: the sample with its successor, and four samples around it. -/
example : average (fun k => if k = 2 then 0 else 1) 5 1 1 = 1 / 2 ∧ average (fun k => if k = 2 then 0 else 1) 5 2 3 = 3 / 4 := by
  constructor
  · have : window 5 1 1 = {1, 2} := by decide +kernel
    norm_num [average, this, mirror, show Int.toNat 2 = 2 from rfl, show Int.toNat 3 = 3 from rfl, show Int.toNat 4 = 4 from rfl]
  · have : window 5 2 3 = {2, 3, 4, 5} := by decide +kernel
    norm_num [average, this, mirror, show Int.toNat 2 = 2 from rfl, show Int.toNat 3 = 3 from rfl, show Int.toNat 4 = 4 from rfl]

example : ∃ sm wv, wvm 100 (fun k => fin (k : ℝ)) ([300, 400, 500].map fin) (fin 3) (fin 10) 60 = .ok (sm, wv, scales 60) := by
  obtain ⟨sm, wv, h, -⟩ := value 100 (fun k => fin (k : ℝ)) (fun k => (k : ℝ)) (fun _ _ => rfl) [300, 400, 500] (N := 3) (v := 10) (dt := 60)
    (by norm_num) (by norm_num) (by norm_num) (by norm_num)
  exact ⟨sm, wv, h⟩

end Pvlib.Props.Wavelet
end
