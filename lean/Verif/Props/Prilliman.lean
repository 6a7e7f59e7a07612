import Verif.Model.Temperature
import Mathlib.Algebra.Order.BigOperators.Ring.Finset
import Mathlib.Algebra.BigOperators.Intervals
import Mathlib.Algebra.Order.Floor.Semifield

/-! # Property C55: `pvlib.temperature.prilliman` (thermal smoothing over a trailing window) -/

noncomputable section
open scoped Classical
open Real
namespace Pvlib.Props.Prilliman
open Fl Pvlib.Temperature

/-- A measured series: `none` is a missing value (NaN). -/
def ofOpt : Option ℝ → Fl
  | none => nan
  | some t => fin t
private theorem ofOpt_none : ofOpt none = nan := rfl
private theorem ofOpt_some (t : ℝ) : ofOpt (some t) = fin t := rfl

/-- Lags (in samples) of the valid values in the trailing window of `W` samples before position `i`; the current
sample (lag 0) is not among them. -/
def lags (T : ℕ → Option ℝ) (W i : ℕ) : Finset ℕ :=
  (Finset.Icc 1 W).filter (fun k => k ≤ i ∧ (T (i - k)).isSome)

/-- Specification of the smoothed temperature at `i`: the average of the values in the window weighted by
`exp(-P * age)`, the age of lag `k` being `k * dt` seconds. -/
def average (T : ℕ → Option ℝ) (P dt : ℝ) (W i : ℕ) : ℝ :=
  (∑ k ∈ lags T W i, (T (i - k)).getD 0 * Real.exp (-P * (k * dt))) /
    ∑ k ∈ lags T W i, Real.exp (-P * (k * dt))

/-- The decay rate of the Prilliman model as a function of wind speed and unit mass. -/
def rate (a : ℝ × ℝ × ℝ × ℝ) (w m : ℝ) : ℝ := a.1 + a.2.1 * w + a.2.2.1 * m + a.2.2.2 * w * m

/-- `n` samples, `d` seconds apart, `d` not a whole number of days. -/
structure Regular (times : ℕ → ℤ) (n : ℕ) (d : ℤ) : Prop where
  three : 3 ≤ n
  step : ∀ i, i + 1 < n → times (i + 1) - times i = d
  sub_day : d % 86400 ≠ 0

private theorem sampleIntervals_regular {times : ℕ → ℤ} {n : ℕ} {d : ℤ} (h : Regular times n d) :
    sampleIntervals times n 20 = .ok (((d % 86400 : ℤ) : ℝ) / 60, ⌊20 / (((d % 86400 : ℤ) : ℝ) / 60)⌋₊) := by
  have h3 := h.three
  have h0 : times 1 - times 0 = d := h.step 0 (by omega)
  have hd : d ≠ 0 := by rintro rfl; exact h.sub_day (by simp)
  unfold sampleIntervals
  rw [if_pos ⟨h.three, by rw [h0]; exact hd, fun i hi => by rw [h0]; exact h.step i hi⟩]
  simp only [h0, if_neg h.sub_day]

private theorem floor_window (s : ℕ) : ⌊(20 : ℝ) / ((s : ℝ) / 60)⌋₊ = 1200 / s := by
  rw [show (20 : ℝ) / ((s : ℝ) / 60) = ((1200 : ℕ) : ℝ) / (s : ℝ) by
    rw [div_div_eq_mul_div]; norm_num]
  exact Nat.floor_div_eq_div (K := ℝ) 1200 s

/-- **C55**: `prilliman` raises NotImplementedError on an irregular (or shorter than three samples) index, and
ZeroDivisionError when the sampling interval is a whole number of days; otherwise it succeeds. -/
theorem prilliman_errors (T v : ℕ → Fl) (times : ℕ → ℤ) (n : ℕ) (m : Fl) (c : Option (Fl × Fl × Fl × Fl)) :
    ((¬ ∃ d, d ≠ 0 ∧ 3 ≤ n ∧ ∀ i, i + 1 < n → times (i + 1) - times i = d) →
      prilliman T v times n m c = .error .notImplementedError) ∧
    (∀ d : ℤ, d ≠ 0 → 3 ≤ n → (∀ i, i + 1 < n → times (i + 1) - times i = d) → d % 86400 = 0 →
      prilliman T v times n m c = .error .zeroDivision) ∧
    (∀ d, Regular times n d → ∃ r, prilliman T v times n m c = .ok r) := by
  refine ⟨fun h => ?_, fun d hd h3 hs h0 => ?_, fun d hr => ?_⟩
  · have : sampleIntervals times n 20 = .error .notImplementedError := by
      unfold sampleIntervals
      rw [if_neg]
      rintro ⟨h3, h0, hs⟩
      exact h ⟨_, h0, h3, hs⟩
    simp [prilliman, this]
  · have e0 : times 1 - times 0 = d := hs 0 (by omega)
    have : sampleIntervals times n 20 = .error .zeroDivision := by
      unfold sampleIntervals
      rw [if_pos ⟨h3, by rw [e0]; exact hd, fun i hi => by rw [e0]; exact hs i hi⟩]
      simp [e0, h0]
    simp [prilliman, this]
  · unfold prilliman
    rw [sampleIntervals_regular hr]
    simp only
    split_ifs <;> exact ⟨_, rfl⟩

example (T v : ℕ → Fl) : ∃ r, prilliman T v (fun i => 300 * i) 100 (fin 11) none = .ok r :=
  (prilliman_errors T v (fun i => 300 * i) 100 (fin 11) none).2.2 300
    ⟨by norm_num, fun i _ => by push_cast; ring, by norm_num⟩
example (T v : ℕ → Fl) : prilliman T v (fun i => 86400 * i) 100 (fin 11) none = .error .zeroDivision :=
  (prilliman_errors T v (fun i => 86400 * i) 100 (fin 11) none).2.1 86400 (by norm_num) (by norm_num)
    (fun i _ => by push_cast; ring) (by norm_num)

/-- **C55**: data sampled every 20 minutes or slower are returned unchanged. -/
theorem prilliman_coarse (T v : ℕ → Fl) (times : ℕ → ℤ) (n : ℕ) (m : Fl) (c : Option (Fl × Fl × Fl × Fl)) (d : ℤ)
    (h : Regular times n d) (hc : 1200 ≤ d % 86400) : prilliman T v times n m c = .ok T := by
  unfold prilliman
  rw [sampleIntervals_regular h]
  have : (20 : ℝ) ≤ ((d % 86400 : ℤ) : ℝ) / 60 := by
    have : (1200 : ℝ) ≤ ((d % 86400 : ℤ) : ℝ) := by exact_mod_cast hc
    linarith
  simp [this]

example (T v : ℕ → Fl) := prilliman_coarse T v (fun i => 3600 * i) 24 (fin 11) none 3600
  ⟨by norm_num, fun i _ => by push_cast; ring, by norm_num⟩ (by norm_num)

private theorem sum_range_fin (f : ℕ → Fl) (g : ℕ → ℝ) (W : ℕ) (h : ∀ r < W, f r = fin (g r)) :
    Fl.sum ((List.range W).map f) = fin (∑ r ∈ Finset.range W, g r) := by
  have : (List.range W).map f = ((List.range W).map g).map fin := by
    rw [List.map_map]
    exact List.map_congr_left (fun r hr => h r (List.mem_range.mp hr))
  rw [this, Fl.sum_fin]
  congr 1

private theorem nansum_fin (f : ℕ → Fl) (g : ℕ → ℝ) (W : ℕ)
    (h : ∀ r < W, (f r = nan ∧ g r = 0) ∨ f r = fin (g r)) :
    nansum ((List.range W).map f) = fin (∑ r ∈ Finset.range W, g r) := by
  have gen : ∀ l : List ℕ, (∀ r ∈ l, (f r = nan ∧ g r = 0) ∨ f r = fin (g r)) →
      ∀ x : ℝ, ((l.map f).filter (fun x => x ≠ nan)).foldl (· + ·) (fin x) = fin (x + (l.map g).sum) := by
    intro l
    induction l with
    | nil => intro _ x; simp
    | cons r l ih =>
      intro hl x
      have hl' := fun r' hr' => hl r' (List.mem_cons_of_mem _ hr')
      rcases hl r (List.mem_cons_self) with ⟨h1, h2⟩ | h1
      · simp only [List.map_cons, h1, h2]
        rw [List.filter_cons_of_neg (by simp)]
        rw [ih hl']; simp
      · simp only [List.map_cons, h1]
        rw [List.filter_cons_of_pos (by simp)]
        simp only [List.foldl_cons, fin_add, ih hl', List.sum_cons]
        congr 1; ring
  unfold nansum Fl.sum
  rw [zero_eq, gen _ (fun r hr => h r (List.mem_range.mp hr)), zero_add]
  congr 1

private theorem reindex (T : ℕ → Option ℝ) (W i : ℕ) (F : ℕ → ℝ) :
    ∑ r ∈ Finset.range W, (if W - r ≤ i ∧ (T (i - (W - r))).isSome then F (W - r) else 0) =
      ∑ k ∈ lags T W i, F k := by
  rw [lags, Finset.sum_filter]
  refine Finset.sum_nbij' (fun r => W - r) (fun k => W - k) ?_ ?_ ?_ ?_ ?_
  · intro r hr; simp only [Finset.mem_range] at hr; simp only [Finset.mem_Icc]; omega
  · intro k hk; simp only [Finset.mem_Icc] at hk; simp only [Finset.mem_range]; omega
  · intro r hr; simp only [Finset.mem_range] at hr; omega
  · intro k hk; simp only [Finset.mem_Icc] at hk; omega
  · intro r hr; rfl

private theorem subset_eq (T : ℕ → Option ℝ) (W i r : ℕ) (hr : r < W) :
    prillimanSubset (fun j => ofOpt (T j)) W i r =
      if W - r ≤ i ∧ (T (i - (W - r))).isSome then fin ((T (i - (W - r))).getD 0) else nan := by
  unfold prillimanSubset
  by_cases h : r + i < W
  · rw [if_pos h, if_neg (by omega)]
  · rw [if_neg h, show r + i - W = i - (W - r) by omega]
    have : W - r ≤ i := by omega
    simp only [this, true_and]
    cases T (i - (W - r)) <;> simp [ofOpt]

/-- **C55**: the value returned for sample `i`.  The first sample is returned as it is; every later sample becomes the
weighted average of the valid values in the preceding 20 minutes (`average`), with the decay rate of its own wind
speed, and NaN if there is no valid value or the wind speed is missing. -/
theorem prilliman_value (T v : ℕ → Option ℝ) (times : ℕ → ℤ) (n : ℕ) (m : ℝ) (a : ℝ × ℝ × ℝ × ℝ) (d : ℤ)
    (h : Regular times n d) (hf : d % 86400 < 1200) :
    ∃ s, prilliman (fun j => ofOpt (T j)) (fun j => ofOpt (v j)) times n (fin m)
        (some (fin a.1, fin a.2.1, fin a.2.2.1, fin a.2.2.2)) = .ok s ∧
      s 0 = ofOpt (T 0) ∧
      ∀ i, 0 < i → i < n →
        let W := min (1200 / (d % 86400).toNat) n
        s i = match v i with
          | none => nan
          | some w => if (lags T W i).Nonempty then fin (average T (rate a w m) ((d % 86400).toNat) W i) else nan := by
  have hpos : 0 ≤ d % 86400 := Int.emod_nonneg _ (by norm_num)
  have hne := h.sub_day
  obtain ⟨s, hs⟩ : ∃ s : ℕ, d % 86400 = s := ⟨_, (Int.toNat_of_nonneg hpos).symm⟩
  have hs0 : 0 < s := by omega
  have hs20 : ¬ (20 : ℝ) ≤ ((s : ℤ) : ℝ) / 60 := by
    have : (s : ℝ) < 1200 := by exact_mod_cast (by omega : s < 1200)
    push_cast; intro h; linarith
  unfold prilliman
  rw [sampleIntervals_regular h, hs]
  have hw : ⌊(20 : ℝ) / (((s : ℤ) : ℝ) / 60)⌋₊ = 1200 / s := by
    rw [Int.cast_natCast]; exact floor_window s
  simp only [hs20, if_false, hw, Int.toNat_natCast]
  refine ⟨_, rfl, by simp, fun i hi hin => ?_⟩
  simp only [hi.ne', if_false, Option.getD_some]
  set W := min (1200 / s) n with hW
  cases hv : v i with
  | none =>
    simp only
    -- the weights are NaN or zero
    by_cases hL : ∃ r < W, W - r ≤ i ∧ (T (i - (W - r))).isSome
    · -- the denominator is NaN
      have hden : ∀ l : List ℕ, (∀ r ∈ l, r < W) → ∀ x : Fl,
          (l.map (prillimanWeight (fun j => ofOpt (T j)) (fun j => ofOpt (v j)) (fin m)
            (fin a.1, fin a.2.1, fin a.2.2.1, fin a.2.2.2) (((s : ℤ) : ℝ) / 60) W i)).foldl (· + ·) x =
          if ∃ r ∈ l, W - r ≤ i ∧ (T (i - (W - r))).isSome then nan else x := by
        intro l
        induction l with
        | nil => intro _ x; simp
        | cons r l ih =>
          intro hl x
          have hr := hl r List.mem_cons_self
          simp only [List.map_cons, List.foldl_cons]
          rw [ih (fun r' hr' => hl r' (List.mem_cons_of_mem _ hr'))]
          by_cases hv' : W - r ≤ i ∧ (T (i - (W - r))).isSome
          · have : prillimanWeight (fun j => ofOpt (T j)) (fun j => ofOpt (v j)) (fin m)
                (fin a.1, fin a.2.1, fin a.2.2.1, fin a.2.2.2) (((s : ℤ) : ℝ) / 60) W i r = nan := by
              simp only [prillimanWeight, subset_eq T W i r hr, hv, ofOpt_none]
              rw [if_pos hv']
              simp
            rw [this, add_nan, ite_self, if_pos ⟨r, List.mem_cons_self, hv'⟩]
          · have : prillimanWeight (fun j => ofOpt (T j)) (fun j => ofOpt (v j)) (fin m)
                (fin a.1, fin a.2.1, fin a.2.2.1, fin a.2.2.2) (((s : ℤ) : ℝ) / 60) W i r = fin 0 := by
              simp only [prillimanWeight, subset_eq T W i r hr]
              rw [if_neg hv']
              simp
            rw [this, add_zero']
            have hiff : (∃ r' ∈ r :: l, W - r' ≤ i ∧ (T (i - (W - r'))).isSome) ↔
                (∃ r' ∈ l, W - r' ≤ i ∧ (T (i - (W - r'))).isSome) := by
              simp only [List.mem_cons, exists_eq_or_imp, hv', false_or]
            by_cases hh : ∃ r' ∈ l, W - r' ≤ i ∧ (T (i - (W - r'))).isSome
            · rw [if_pos hh, if_pos (hiff.mpr hh)]
            · rw [if_neg hh, if_neg (fun hx => hh (hiff.mp hx))]
      unfold Fl.sum
      rw [hden _ (fun r hr => List.mem_range.mp hr), if_pos]
      · simp
      · obtain ⟨r, hr, h'⟩ := hL
        exact ⟨r, List.mem_range.mpr hr, h'⟩
    · have hall : ∀ r < W, prillimanSubset (fun j => ofOpt (T j)) W i r = nan := by
        intro r hr
        rw [subset_eq T W i r hr, if_neg (fun h' => hL ⟨r, hr, h'⟩)]
      rw [sum_range_fin _ (fun _ => 0) W (fun r hr => by simp [prillimanWeight, hall r hr]),
        nansum_fin _ (fun _ => 0) W (fun r hr => by left; simp [hall r hr])]
      simp [fin_div_zero]
  | some w =>
    simp only
    have hwt : ∀ r < W, prillimanWeight (fun j => ofOpt (T j)) (fun j => ofOpt (v j)) (fin m)
          (fin a.1, fin a.2.1, fin a.2.2.1, fin a.2.2.2) (((s : ℤ) : ℝ) / 60) W i r =
        fin (if W - r ≤ i ∧ (T (i - (W - r))).isSome then
          Real.exp (-(rate a w m) * (((W - r : ℕ) : ℝ) * s)) else 0) := by
      intro r hr
      simp only [prillimanWeight, subset_eq T W i r hr, hv, ofOpt_some]
      by_cases hv' : W - r ≤ i ∧ (T (i - (W - r))).isSome
      · rw [if_pos hv', if_pos hv']
        simp only [fin_ne_nan, if_false, fin_mul, fin_add, neg_fin, exp_fin, rate]
        congr 2
        push_cast
        ring
      · rw [if_neg hv', if_neg hv']
        simp
    rw [sum_range_fin _ _ W hwt, reindex T W i (fun k => Real.exp (-(rate a w m) * ((k : ℝ) * s)))]
    rw [nansum_fin _ (fun r => if W - r ≤ i ∧ (T (i - (W - r))).isSome then
          (T (i - (W - r))).getD 0 * Real.exp (-(rate a w m) * (((W - r : ℕ) : ℝ) * s)) else 0) W]
    · rw [reindex T W i (fun k => (T (i - k)).getD 0 * Real.exp (-(rate a w m) * ((k : ℝ) * s)))]
      by_cases hL : (lags T W i).Nonempty
      · rw [if_pos hL]
        have : 0 < ∑ k ∈ lags T W i, Real.exp (-(rate a w m) * ((k : ℝ) * s)) :=
          Finset.sum_pos (fun k _ => Real.exp_pos _) hL
        rw [fin_div this.ne']
        rfl
      · rw [if_neg hL]
        rw [Finset.not_nonempty_iff_eq_empty] at hL
        simp [hL, fin_div_zero]
    · intro r hr
      rw [hwt r hr, subset_eq T W i r hr]
      by_cases hv' : W - r ≤ i ∧ (T (i - (W - r))).isSome
      · right; rw [if_pos hv', if_pos hv', if_pos hv', fin_mul]
      · left; rw [if_neg hv', if_neg hv', if_neg hv', nan_mul]; exact ⟨rfl, rfl⟩

/-- The hypotheses are met by, e.g., hundred samples five minutes apart. -/
example : Regular (fun i => 300 * i) 100 300 ∧ (300 : ℤ) % 86400 < 1200 :=
  ⟨⟨by norm_num, fun i _ => by push_cast; ring, by norm_num⟩, by norm_num⟩

/-- **C55**: the smoothed value stays between bounds on the values in the window; in particular a constant series is
returned unchanged. -/
theorem average_bounds (T : ℕ → Option ℝ) (P dt : ℝ) (W i : ℕ) (lo hi : ℝ) (hL : (lags T W i).Nonempty)
    (h : ∀ k t, 1 ≤ k → k ≤ W → k ≤ i → T (i - k) = some t → lo ≤ t ∧ t ≤ hi) :
    lo ≤ average T P dt W i ∧ average T P dt W i ≤ hi := by
  have hpos : 0 < ∑ k ∈ lags T W i, Real.exp (-P * (k * dt)) :=
    Finset.sum_pos (fun k _ => Real.exp_pos _) hL
  have hb : ∀ k ∈ lags T W i, lo ≤ (T (i - k)).getD 0 ∧ (T (i - k)).getD 0 ≤ hi := by
    intro k hk
    simp only [lags, Finset.mem_filter, Finset.mem_Icc] at hk
    obtain ⟨⟨h1, h2⟩, h3, h4⟩ := hk
    obtain ⟨t, ht⟩ := Option.isSome_iff_exists.mp h4
    rw [ht]
    exact h k t h1 h2 h3 ht
  unfold average
  constructor
  · rw [le_div_iff₀ hpos, Finset.mul_sum]
    exact Finset.sum_le_sum (fun k hk => mul_le_mul_of_nonneg_right (hb k hk).1 (Real.exp_pos _).le)
  · rw [div_le_iff₀ hpos, Finset.mul_sum]
    exact Finset.sum_le_sum (fun k hk => mul_le_mul_of_nonneg_right (hb k hk).2 (Real.exp_pos _).le)

example := average_bounds (fun i => if i = 3 then none else some (20 + i)) 0.001 300 4 6 20 26
  ⟨1, by simp [lags]⟩ (fun k t hk _ _ h => by
    have hk' : (6 - k : ℕ) ≤ 5 := by omega
    split_ifs at h
    simp only [Option.some.injEq] at h
    have : ((6 - k : ℕ) : ℝ) ≤ 5 := by exact_mod_cast hk'
    rw [← h]
    exact ⟨by have := Nat.cast_nonneg (α := ℝ) (6 - k); linarith, by linarith⟩)

/-- **C55**: a constant temperature series comes back unchanged, whatever the wind. -/
theorem prilliman_constant (t : ℝ) (v : ℕ → ℝ) (times : ℕ → ℤ) (n : ℕ) (m : ℝ) (a : ℝ × ℝ × ℝ × ℝ) (d : ℤ)
    (h : Regular times n d) :
    ∃ s, prilliman (fun _ => fin t) (fun j => fin (v j)) times n (fin m)
        (some (fin a.1, fin a.2.1, fin a.2.2.1, fin a.2.2.2)) = .ok s ∧ ∀ i < n, s i = fin t := by
  by_cases hf : d % 86400 < 1200
  · obtain ⟨s, h1, h2, h3⟩ := prilliman_value (fun _ => some t) (fun j => some (v j)) times n m a d h hf
    refine ⟨s, h1, fun i hi => ?_⟩
    rcases Nat.eq_zero_or_pos i with rfl | hp
    · exact h2
    · have hW := h3 i hp hi
      simp only at hW
      have hd : 0 < d % 86400 := lt_of_le_of_ne (Int.emod_nonneg _ (by norm_num)) (Ne.symm h.sub_day)
      have hW1 : 1 ≤ min (1200 / (d % 86400).toNat) n := by
        refine le_min ?_ (by have := h.three; omega)
        exact (Nat.one_le_div_iff (by omega)).mpr (by omega)
      have hL : (lags (fun _ => some t) (min (1200 / (d % 86400).toNat) n) i).Nonempty :=
        ⟨1, by simp only [lags, Finset.mem_filter, Finset.mem_Icc]; exact ⟨⟨le_refl _, hW1⟩, hp, rfl⟩⟩
      rw [hW, if_pos hL]
      obtain ⟨b1, b2⟩ := average_bounds (fun _ => some t) (rate a (v i) m) ((d % 86400).toNat)
        (min (1200 / (d % 86400).toNat) n) i t t hL (by
          rintro k t' _ _ _ ht; cases ht; exact ⟨le_refl _, le_refl _⟩)
      exact congrArg fin (le_antisymm b2 b1)
  · exact ⟨_, prilliman_coarse _ _ times n _ _ d h (by omega), fun i _ => rfl⟩

example := prilliman_constant 25 (fun i => i) (fun i => 300 * i) 100 11 (0.0046, 0.00046, -0.00023, -1.6e-5) 300
  ⟨by norm_num, fun i _ => by push_cast; ring, by norm_num⟩

/-- **C55**: causality: the value returned for sample `i > 0` is determined by the temperatures strictly before `i`
within the window and by the wind speed at `i`. In particular it does not depend on the temperature at `i` itself. -/
theorem prilliman_causal (T T' v v' : ℕ → Option ℝ) (times : ℕ → ℤ) (n : ℕ) (m : ℝ) (a : ℝ × ℝ × ℝ × ℝ) (d : ℤ)
    (h : Regular times n d) (hf : d % 86400 < 1200) (i : ℕ) (hi : 0 < i) (hin : i < n)
    (hT : ∀ j, j < i → (i - j) * (d % 86400).toNat ≤ 1200 → T j = T' j) (hv : v i = v' i) :
    ∃ s s', prilliman (fun j => ofOpt (T j)) (fun j => ofOpt (v j)) times n (fin m)
        (some (fin a.1, fin a.2.1, fin a.2.2.1, fin a.2.2.2)) = .ok s ∧
      prilliman (fun j => ofOpt (T' j)) (fun j => ofOpt (v' j)) times n (fin m)
        (some (fin a.1, fin a.2.1, fin a.2.2.1, fin a.2.2.2)) = .ok s' ∧ s i = s' i := by
  obtain ⟨s, h1, _, h3⟩ := prilliman_value T v times n m a d h hf
  obtain ⟨s', h1', _, h3'⟩ := prilliman_value T' v' times n m a d h hf
  refine ⟨s, s', h1, h1', ?_⟩
  have e := h3 i hi hin
  have e' := h3' i hi hin
  simp only at e e'
  set q := (d % 86400).toNat with hq
  have hq0 : 0 < q := by
    have : 0 < d % 86400 := lt_of_le_of_ne (Int.emod_nonneg _ (by norm_num)) (Ne.symm h.sub_day)
    omega
  have key : ∀ k, 1 ≤ k → k ≤ min (1200 / q) n → k ≤ i → T (i - k) = T' (i - k) := by
    intro k k1 k2 k3
    apply hT _ (by omega)
    rw [show i - (i - k) = k by omega]
    have : k ≤ 1200 / q := k2.trans (min_le_left _ _)
    exact (Nat.le_div_iff_mul_le hq0).mp this
  have hl : lags T (min (1200 / q) n) i = lags T' (min (1200 / q) n) i := by
    unfold lags
    refine Finset.filter_congr (fun k hk => ?_)
    simp only [Finset.mem_Icc] at hk
    constructor
    · rintro ⟨k3, hs⟩; exact ⟨k3, by rw [← key k hk.1 hk.2 k3]; exact hs⟩
    · rintro ⟨k3, hs⟩; exact ⟨k3, by rw [key k hk.1 hk.2 k3]; exact hs⟩
  have ha : ∀ P, average T P q (min (1200 / q) n) i = average T' P q (min (1200 / q) n) i := by
    intro P
    unfold average
    rw [← hl]
    congr 1
    refine Finset.sum_congr rfl (fun k hk => ?_)
    simp only [lags, Finset.mem_filter, Finset.mem_Icc] at hk
    rw [key k hk.1.1 hk.1.2 hk.2.1]
  rw [e, e', hv, hl]
  simp only [ha]

/-- With five-minute samples the value at 10 does not depend on what happened before 6 or from 10 on. -/
example := prilliman_causal (fun i => some i) (fun i => if i < 6 ∨ 10 ≤ i then none else some i) (fun _ => some 2) (fun _ => some 2)
  (fun i => 300 * i) 100 11 (0.0046, 0.00046, -0.00023, -1.6e-5) 300
  ⟨by norm_num, fun i _ => by push_cast; ring, by norm_num⟩ (by norm_num) 10 (by norm_num) (by norm_num)
  (fun j hj h => by
    have h' : (10 - j) * 300 ≤ 1200 := h
    rw [if_neg (by omega)]) rfl

end Pvlib.Props.Prilliman
end
