import Verif.Model.Scaling
import Verif.Props.Spec
import Mathlib.Algebra.BigOperators.Group.List.Basic

/-! # Property C36: the wavelet variability model -/

noncomputable section
open scoped Classical
namespace Pvlib.Props.Scaling
open Fl Pvlib.Scaling

/-! ### The averages are finite, and constant for a constant signal -/

private theorem rollIdx_ne (N w : ℕ) (x : Series) (j : ℕ) (hw : 0 < w) (hj : j < N) (hx : ¬ isnan (x j)) :
    rollIdx N w x j ≠ [] := by
  intro h
  have : j ∈ rollIdx N w x j := by
    simp only [rollIdx, List.mem_filter, List.mem_range, decide_eq_true_eq]
    refine ⟨hj, by omega, ?_, hx⟩
    have : (w - 1) / 2 < w := by omega
    omega
  rw [h] at this
  simp at this

private theorem sum_fin_of {l : List ℕ} {x : Series} (f : ℕ → ℝ) (h : ∀ k ∈ l, x k = fin (f k)) :
    Fl.sum (l.map x) = fin ((l.map f).sum) := by
  have : l.map x = (l.map f).map fin := by
    rw [List.map_map]
    exact List.map_congr_left h
  rw [this, sum_fin]

private theorem rollMean_fin (N w : ℕ) (x : Series) (f : ℕ → ℝ) (hw : 0 < w) (hx : ∀ k < N, x k = fin (f k))
    (j : ℕ) (hj : j < N) : ∃ m, rollMean N w x j = fin m ∧ ((∀ k < N, f k = f 0) → m = f 0) := by
  have hne := rollIdx_ne N w x j hw hj (by rw [hx j hj]; simp)
  have hlen : ((rollIdx N w x j).length : ℝ) ≠ 0 := by
    simpa using hne
  have hmem : ∀ k ∈ rollIdx N w x j, k < N := by
    intro k hk
    simp only [rollIdx, List.mem_filter, List.mem_range] at hk
    exact hk.1
  refine ⟨((rollIdx N w x j).map f).sum / (rollIdx N w x j).length, ?_, ?_⟩
  · rw [rollMean, if_neg hne, sum_fin_of f (fun k hk => hx k (hmem k hk)), fin_div hlen]
  · intro hc
    have : (rollIdx N w x j).map f = (rollIdx N w x j).map (fun _ => f 0) :=
      List.map_congr_left fun k hk => hc k (hmem k hk)
    rw [this, List.map_const', List.sum_replicate, nsmul_eq_mul]
    field_simp

private theorem bfill_fin (N : ℕ) (x : Series) (f : ℕ → ℝ) (hx : ∀ k < N, x k = fin (f k)) (j : ℕ) (hj : j < N) :
    bfill N x j = fin (f j) := by
  have hf : ((List.range N).filter fun k => decide (j ≤ k ∧ ¬ isnan (x k))).head? = some j := by
    rw [List.head?_filter]
    rw [List.find?_range_eq_some]
    refine ⟨?_, ?_, ?_⟩
    · simp [hx j hj]
    · simp [hj]
    · intro k hk
      simp only [Bool.not_eq_eq_eq_not, Bool.not_true, decide_eq_false_iff_not, not_and]
      intro h; omega
  rw [bfill, hf]
  exact hx j hj

private theorem ffill_fin (N : ℕ) (x : Series) (f : ℕ → ℝ) (hx : ∀ k < N, x k = fin (f k)) (j : ℕ) (hj : j < N) :
    Series.ffill x j = fin (f j) := by
  cases j with
  | zero => exact hx 0 hj
  | succ j => simp [Series.ffill, hx (j + 1) hj]

private theorem pad_fin (n : ℕ) (vals : Series) (f : ℕ → ℝ) (hn : 0 < n) (hv : ∀ k < n, vals k = fin (f k)) :
    ∀ j < 3 * n, padSymmetric n vals j = fin (if j < n then f (n - 1 - j) else if j < 2 * n then f (j - n)
      else f (n - 1 - (j - 2 * n))) := by
  intro j hj
  simp only [padSymmetric]
  split_ifs
  · exact hv _ (by omega)
  · exact hv _ (by omega)
  · exact hv _ (by omega)

/-- Every average of a finite signal is finite at every sample of the original window; for a constant signal
it is that constant; the 0th is the signal itself. -/
private theorem csiMean_fin (n : ℕ) (vals : Series) (f : ℕ → ℝ) (hv : ∀ k < n, vals k = fin (f k)) :
    ∃ m : ℕ → ℕ → ℝ, (∀ i, ∀ j < n, csiMean n vals i (n + j) = fin (m i j)) ∧ (∀ j < n, m 0 j = f j) ∧
      ((∀ k < n, f k = f 0) → ∀ i, ∀ j < n, m i j = f 0) := by
  by_cases hn : 0 < n
  swap
  · exact ⟨fun _ _ => 0, fun i j hj => absurd hj (by omega), fun j hj => absurd hj (by omega),
      fun _ i j hj => absurd hj (by omega)⟩
  set g : ℕ → ℝ := fun j => if j < n then f (n - 1 - j) else if j < 2 * n then f (j - n)
      else f (n - 1 - (j - 2 * n)) with hg
  have hpad := pad_fin n vals f hn hv
  have hmean : ∀ i j, ∃ m, j < 3 * n → rollMean (3 * n) (2 ^ i) (padSymmetric n vals) j = fin m ∧
      ((∀ k < 3 * n, g k = g 0) → m = g 0) := by
    intro i j
    by_cases hj : j < 3 * n
    · obtain ⟨m, h1, h2⟩ := rollMean_fin (3 * n) (2 ^ i) (padSymmetric n vals) g (by positivity) hpad j hj
      exact ⟨m, fun _ => ⟨h1, h2⟩⟩
    · exact ⟨0, fun h => absurd h hj⟩
  choose r hr using hmean
  have hconst : (∀ k < n, f k = f 0) → ∀ k < 3 * n, g k = f 0 := by
    intro hc k hk
    simp only [hg]
    split_ifs <;> exact hc _ (by omega)
  refine ⟨fun i j => if i = 0 then f j else r i (n + j + 1), ?_, ?_, ?_⟩
  · intro i j hj
    by_cases hi : i = 0
    · subst hi
      simp only [csiMean, if_true]
      rw [hpad _ (by omega), if_neg (by omega), if_pos (by omega)]
      congr 2; omega
    · simp only [csiMean, if_neg hi, shiftLast]
      rw [if_neg (by omega), Nat.mod_eq_of_lt (by omega)]
      have hb : ∀ k < 3 * n, bfill (3 * n) (rollMean (3 * n) (2 ^ i) (padSymmetric n vals)) k = fin (r i k) :=
        fun k hk => bfill_fin (3 * n) _ (r i) (fun k hk => (hr i k hk).1) k hk
      exact ffill_fin (3 * n) _ (r i) hb _ (by omega)
  · intro j hj; simp
  · intro hc i j hj
    by_cases hi : i = 0
    · simp only [hi, if_true]; exact hc j hj
    · simp only [if_neg hi]
      have h3 := hconst hc
      have := (hr i (n + j + 1) (by omega)).2 (fun k hk => by rw [h3 k hk, h3 0 (by omega)])
      rw [this, h3 0 (by omega)]

/-! ### Sums of modes -/

/-- Telescoping over the modes. -/
private theorem telescope (m : ℕ → ℝ) (M : ℕ) (hM : 0 < M) :
    ((List.range M).map fun i => if i < M - 1 then m i - m (i + 1) else m (M - 1)).sum = m 0 := by
  obtain ⟨k, rfl⟩ : ∃ k, M = k + 1 := ⟨M - 1, by omega⟩
  have h1 : ∀ k, ((List.range k).map fun i => m i - m (i + 1)).sum = m 0 - m k := by
    intro k
    induction k with
    | zero => simp
    | succ k ih => rw [List.range_succ, List.map_append, List.sum_append, ih]; simp
  rw [List.range_succ, List.map_append, List.sum_append]
  have : (List.range k).map (fun i => if i < k + 1 - 1 then m i - m (i + 1) else m (k + 1 - 1)) =
      (List.range k).map (fun i => m i - m (i + 1)) := by
    apply List.map_congr_left
    intro i hi
    rw [List.mem_range] at hi
    rw [if_pos (by omega)]
  rw [this, h1]
  simp

private theorem wavelet_fin (n M : ℕ) (vals : Series) (m : ℕ → ℕ → ℝ)
    (hm : ∀ i, ∀ j < n, csiMean n vals i (n + j) = fin (m i j)) (i j : ℕ) (hj : j < n) :
    wavelet n M vals i j = fin (if i < M - 1 then m i j - m (i + 1) j else m (M - 1) j) := by
  unfold wavelet
  split_ifs
  · rw [hm i j hj, hm (i + 1) j hj, fin_sub]
  · exact hm (M - 1) j hj

/-- **C36** (exact decomposition): the modes returned by `wvm` add up to the original signal at every
sample, whatever the number of samples and scales. -/
theorem wavelet_sum (n M : ℕ) (hM : 0 < M) (vals : Series) (f : ℕ → ℝ) (hv : ∀ k < n, vals k = fin (f k))
    (j : ℕ) (hj : j < n) :
    Fl.sum ((List.range M).map fun i => wavelet n M vals i j) = vals j := by
  obtain ⟨m, h1, h2, -⟩ := csiMean_fin n vals f hv
  have : ((List.range M).map fun i => wavelet n M vals i j) =
      ((List.range M).map fun i => if i < M - 1 then m i j - m (i + 1) j else m (M - 1) j).map fin := by
    rw [List.map_map]
    exact List.map_congr_left fun i _ => wavelet_fin n M vals m h1 i j hj
  rw [this, sum_fin, telescope (fun i => m i j) M hM, h2 j hj, hv j hj]

example := wavelet_sum 8 3 (by norm_num) (fun k => fin (k : ℝ)) (fun k => (k : ℝ)) (fun _ _ => rfl) 5 (by norm_num)

/-- **C36**: variability reductions all 1 (no smoothing) give back the input. -/
theorem smoothed_vr_one (n M : ℕ) (hM : 0 < M) (vals : Series) (f : ℕ → ℝ) (hv : ∀ k < n, vals k = fin (f k))
    (vr : ℕ → Fl) (hvr : ∀ i < M, vr i = fin 1) (j : ℕ) (hj : j < n) :
    smoothed n M vals vr j = vals j := by
  rw [← wavelet_sum n M hM vals f hv j hj, smoothed]
  congr 1
  apply List.map_congr_left
  intro i hi
  rw [List.mem_range] at hi
  obtain ⟨m, h1, -, -⟩ := csiMean_fin n vals f hv
  unfold waveletSmooth
  split_ifs with h
  · rw [hvr i hi, wavelet_fin n M vals m h1 i j hj]
    simp
  · rfl

example := smoothed_vr_one 8 3 (by norm_num) (fun k => fin (k : ℝ)) (fun k => (k : ℝ)) (fun _ _ => rfl) (fun _ => fin 1)
  (fun _ _ => rfl) 5 (by norm_num)

/-- **C36**: a constant signal is returned unchanged, for any positive finite variability reductions. -/
theorem smoothed_const (n M : ℕ) (hM : 0 < M) (vals : Series) (c : ℝ) (hv : ∀ k < n, vals k = fin c)
    (vr : ℕ → Fl) (hvr : ∀ i < M, ∃ r, vr i = fin r ∧ 0 < r) (j : ℕ) (hj : j < n) :
    smoothed n M vals vr j = fin c := by
  obtain ⟨m, h1, h2, h3⟩ := csiMean_fin n vals (fun _ => c) hv
  have h3 := h3 (fun _ _ => rfl)
  have : ((List.range M).map fun i => waveletSmooth n M vals vr i j) =
      ((List.range M).map fun i => if i < M - 1 then m i j - m (i + 1) j else m (M - 1) j).map fin := by
    rw [List.map_map]
    apply List.map_congr_left
    intro i hi
    rw [List.mem_range] at hi
    unfold waveletSmooth
    rw [wavelet_fin n M vals m h1 i j hj]
    by_cases h : i < M - 1
    · obtain ⟨r, hr, hr0⟩ := hvr i hi
      have hs : Real.sqrt r ≠ 0 := (Real.sqrt_pos.mpr hr0).ne'
      simp only [h, if_true, hr, sqrt_fin hr0.le, fin_div hs, h3 i j hj, h3 (i + 1) j hj, Function.comp]
      simp
    · simp only [h, if_false, Function.comp]
  rw [smoothed, this, sum_fin, telescope (fun i => m i j) M hM, h2 j hj]

example := smoothed_const 8 3 (by norm_num) (fun _ => fin 700) 700 (fun _ _ => rfl) (fun i => fin (1 + (i : ℝ)))
  (fun i _ => ⟨_, rfl, by positivity⟩) 5 (by norm_num)

/-- **C36**: no mode is amplified: with variability reductions ≥ 1, each smoothed mode is at most as large as
the mode itself, with the same sign, and the coarsest mode is unchanged. -/
theorem smooth_damps (n M : ℕ) (vals : Series) (f : ℕ → ℝ) (hv : ∀ k < n, vals k = fin (f k))
    (vr : ℕ → Fl) (r : ℝ) (i j : ℕ) (hj : j < n) (hvr : vr i = fin r) (hr : 1 ≤ r) :
    ∃ a b : ℝ, wavelet n M vals i j = fin a ∧ waveletSmooth n M vals vr i j = fin b ∧ |b| ≤ |a| ∧ 0 ≤ a * b ∧
      (M - 1 ≤ i → b = a) := by
  obtain ⟨m, h1, -, -⟩ := csiMean_fin n vals f hv
  have hw := wavelet_fin n M vals m h1 i j hj
  set a := (if i < M - 1 then m i j - m (i + 1) j else m (M - 1) j) with ha
  by_cases h : i < M - 1
  · have hs : 1 ≤ Real.sqrt r := Real.one_le_sqrt.mpr hr
    have hs0 : Real.sqrt r ≠ 0 := by linarith
    refine ⟨a, a / Real.sqrt r, hw, ?_, ?_, ?_, fun h' => by omega⟩
    · unfold waveletSmooth
      rw [if_pos h, hw, hvr, sqrt_fin (by linarith), fin_div hs0]
    · rw [abs_div, abs_of_pos (by linarith : 0 < Real.sqrt r)]
      exact div_le_self (abs_nonneg _) hs
    · rw [← mul_div_assoc]
      exact div_nonneg (mul_self_nonneg a) (by linarith)
  · refine ⟨a, a, hw, ?_, le_rfl, mul_self_nonneg a, fun _ => rfl⟩
    unfold waveletSmooth
    rw [if_neg h, hw]

example := smooth_damps 8 3 (fun k => fin (k : ℝ)) (fun k => (k : ℝ)) (fun _ _ => rfl) (fun _ => fin 2) 2 1 5 (by norm_num) rfl
  (by norm_num)

/-! ### Variability reduction -/

private theorem vr_eval (dist : List ℝ) (N v t : ℝ) (hv : 0 < v) (ht : 0 < t) (hN : 0 < N) :
    ∃ s : ℝ, computeVr (dist.map fin) (fin N) (fin v) (fin t) = fin (N ^ 2 / (2 * s + N)) ∧
      s = (dist.map fun d => Real.exp (-(2 / v) * d / t)).sum ∧ 0 ≤ s ∧
      ((∀ d ∈ dist, 0 ≤ d) → s ≤ dist.length) ∧ ((∀ d ∈ dist, d = 0) → s = dist.length) := by
  refine ⟨(dist.map fun d => Real.exp (-(2 / v) * d / t)).sum, ?_, rfl, ?_, ?_, ?_⟩
  · have e : (dist.map fin).map (fun d => Fl.exp (-1 / (fin v / 2) * d / fin t)) =
        (dist.map fun d => Real.exp (-(2 / v) * d / t)).map fin := by
      rw [List.map_map, List.map_map]
      apply List.map_congr_left
      intro d _
      simp only [Function.comp, ofNat_eq, one_eq, neg_fin]
      rw [fin_div (by norm_num), fin_div (by positivity), fin_mul, fin_div ht.ne', exp_fin]
      congr 2; field_simp
    have hpos : 0 < 2 * (dist.map fun d => Real.exp (-(2 / v) * d / t)).sum + N := by
      have : 0 ≤ (dist.map fun d => Real.exp (-(2 / v) * d / t)).sum :=
        List.sum_nonneg (by intro x hx; obtain ⟨d, -, rfl⟩ := List.mem_map.mp hx; positivity)
      linarith
    simp only [computeVr]
    rw [e, sum_fin]
    simp only [ofNat_eq, fin_mul, fin_add, fin_pow]
    rw [fin_div hpos.ne']
  · exact List.sum_nonneg (by intro x hx; obtain ⟨d, -, rfl⟩ := List.mem_map.mp hx; positivity)
  · intro hd
    induction dist with
    | nil => simp
    | cons d ds ih =>
      simp only [List.map_cons, List.sum_cons, List.length_cons, Nat.cast_add, Nat.cast_one]
      have h1 := ih fun x hx => hd x (by simp [hx])
      have h2 : Real.exp (-(2 / v) * d / t) ≤ 1 := by
        apply Real.exp_le_one_iff.mpr
        have := hd d (by simp)
        have : 0 ≤ 2 / v * d / t := by positivity
        have e : -(2 / v) * d / t = -(2 / v * d / t) := by ring
        linarith
      linarith
  · intro hd
    induction dist with
    | nil => simp
    | cons d ds ih =>
      simp only [List.map_cons, List.sum_cons, List.length_cons, Nat.cast_add, Nat.cast_one]
      rw [ih fun x hx => hd x (by simp [hx]), hd d (by simp)]
      simp; ring

/-- **C36**: for `N ≥ 1` sites (hence `N(N-1)/2` pairwise distances) the variability reduction lies in
`[1, N]` for every cloud speed and time scale, and it is 1 when all sites coincide. -/
theorem vr_range (dist : List ℝ) (N : ℕ) (hN : 1 ≤ N) (hlen : dist.length = N * (N - 1) / 2) (v t : ℝ)
    (hv : 0 < v) (ht : 0 < t) (hd : ∀ d ∈ dist, 0 ≤ d) :
    ∃ r : ℝ, computeVr (dist.map fin) (fin N) (fin v) (fin t) = fin r ∧ 1 ≤ r ∧ r ≤ N ∧
      ((∀ d ∈ dist, d = 0) → r = 1) := by
  have hN' : (1 : ℝ) ≤ N := by exact_mod_cast hN
  obtain ⟨s, h1, -, h2, h3, h4⟩ := vr_eval dist N v t hv ht (by linarith)
  have hl : 2 * (dist.length : ℝ) = N * (N - 1) := by
    have : 2 * dist.length = N * (N - 1) := by
      rw [hlen]
      have : 2 ∣ N * (N - 1) := (Nat.even_mul_pred_self N).two_dvd
      omega
    have h5 : ((2 * dist.length : ℕ) : ℝ) = ((N * (N - 1) : ℕ) : ℝ) := by exact_mod_cast this
    push_cast [Nat.cast_sub hN] at h5
    exact h5
  have h3 := h3 hd
  have hden : 0 < 2 * s + N := by linarith
  refine ⟨_, h1, ?_, ?_, ?_⟩
  · rw [le_div_iff₀ hden]; nlinarith
  · rw [div_le_iff₀ hden]; nlinarith
  · intro h0
    rw [h4 h0, hl]
    have : (N : ℝ) * (N - 1) + N = N ^ 2 := by ring
    rw [this]
    exact div_self (by positivity)

example := vr_range [3, 4, 5] 3 (by norm_num) (by norm_num) 10 60 (by norm_num) (by norm_num) (by simp)

/-- **C36**: if the site count recovered by the minimiser is 0 (what it finds for a single site, whose
distance list is empty), the variability reduction is NaN. -/
theorem vr_zero_sites (v t : ℝ) : computeVr [] (fin 0) (fin v) (fin t) = nan := by
  simp only [computeVr, List.map_nil, Fl.sum, List.foldl_nil, ofNat_eq, zero_eq, fin_mul, fin_add, fin_pow]
  simp [fin_div']

/-! ### The public function -/

/-- Number of time scales: at least one exactly when the time step is at most 4096 s. -/
theorem scales_pos_iff (dt : ℝ) (hdt : 0 < dt) : 0 < maxTmscale dt ↔ dt ≤ 4096 := by
  have h2 : 0 < Real.log 2 := Real.log_pos (by norm_num)
  have h : Real.log 4096 = 12 * Real.log 2 := by
    rw [show (4096 : ℝ) = 2 ^ 12 by norm_num, Real.log_pow]; norm_num
  unfold maxTmscale
  rw [sub_pos, ← Int.le_sub_one_iff, Int.ceil_le]
  norm_num
  rw [div_le_iff₀ h2, ← h, Real.log_le_log_iff hdt (by norm_num)]

example : 0 < maxTmscale 60 := (scales_pos_iff 60 (by norm_num)).2 (by norm_num)

/-- **C36** (`wvm` end to end).  For a finite signal, `N` sites with non-negative distances, positive cloud
speed and a time step of at most 4096 s: `wvm` succeeds; its modes sum to the signal; the smoothed signal
equals the input when all sites coincide, and equals `c` when the signal is constant `c`.  For a larger time
step it raises. -/
theorem wvm_spec (n : ℕ) (vals : Series) (f : ℕ → ℝ) (hv : ∀ k < n, vals k = fin (f k)) (dist : List ℝ) (N : ℕ)
    (hN : 1 ≤ N) (hlen : dist.length = N * (N - 1) / 2) (v dt : ℝ) (hspeed : 0 < v) (hdt : 0 < dt)
    (hd : ∀ d ∈ dist, 0 ≤ d) :
    (dt ≤ 4096 → ∃ sm wv M, wvm n vals (dist.map fin) (fin N) (fin v) dt = .ok (sm, wv, M) ∧ 0 < M ∧
      (∀ j < n, Fl.sum ((List.range M).map fun i => wv i j) = vals j) ∧
      ((∀ d ∈ dist, d = 0) → ∀ j < n, sm j = vals j) ∧
      (∀ c, (∀ k < n, f k = c) → ∀ j < n, sm j = fin c)) ∧
    (4096 < dt → ∃ e, wvm n vals (dist.map fin) (fin N) (fin v) dt = .error e) := by
  constructor
  · intro h
    have hM := (scales_pos_iff dt hdt).mpr h
    have hMn : 0 < (maxTmscale dt).toNat := by omega
    have hvr : ∀ i, ∃ r : ℝ, computeVr (dist.map fin) (fin N) (fin v) (tmscale (fin dt) i) = fin r ∧ 1 ≤ r ∧ r ≤ N ∧
        ((∀ d ∈ dist, d = 0) → r = 1) := by
      intro i
      unfold tmscale
      split_ifs
      · exact vr_range dist N hN hlen v dt hspeed hdt hd
      · have : (2 : Fl) ^ i * fin dt = fin (2 ^ i * dt) := by simp
        rw [this]
        exact vr_range dist N hN hlen v _ hspeed (by positivity) hd
    have hres : wvm n vals (dist.map fin) (fin N) (fin v) dt = .ok
        (smoothed n (maxTmscale dt).toNat vals
          (fun i => computeVr (dist.map fin) (fin N) (fin v) (tmscale (fin dt) i)),
          wavelet n (maxTmscale dt).toNat vals, (maxTmscale dt).toNat) := by
      unfold wvm
      simp only
      rw [if_neg (by omega), if_neg (by omega)]
    refine ⟨_, _, _, hres, hMn, ?_, ?_, ?_⟩
    · intro j hj
      exact wavelet_sum n _ hMn vals f hv j hj
    · intro h0 j hj
      apply smoothed_vr_one n _ hMn vals f hv _ _ j hj
      intro i _
      obtain ⟨r, h1, -, -, h2⟩ := hvr i
      rw [h1, h2 h0]
    · intro c hc j hj
      apply smoothed_const n _ hMn vals c (fun k hk => by rw [hv k hk, hc k hk]) _ _ j hj
      intro i _
      obtain ⟨r, h1, h2, -⟩ := hvr i
      exact ⟨r, h1, by linarith⟩
  · intro h
    have hM : ¬ 0 < maxTmscale dt := by rw [scales_pos_iff dt hdt]; linarith
    unfold wvm
    by_cases h0 : maxTmscale dt < 0
    · exact ⟨_, if_pos h0⟩
    · refine ⟨.indexError, ?_⟩
      simp only
      rw [if_neg h0, if_pos (by omega)]

example : ∃ sm wv M, wvm 100 (fun k => fin (k : ℝ)) ([3, 4, 5].map fin) (fin (3 : ℕ)) (fin 10) 60 = .ok (sm, wv, M) := by
  obtain ⟨sm, wv, M, h, -⟩ := (wvm_spec 100 (fun k => fin (k : ℝ)) (fun k => (k : ℝ)) (fun _ _ => rfl) [3, 4, 5] 3
    (by norm_num) (by norm_num) 10 60 (by norm_num) (by norm_num) (by simp)).1 (by norm_num)
  exact ⟨sm, wv, M, h⟩

end Pvlib.Props.Scaling
end
