import Verif.Model.Clearsky
import Verif.Props.Linke

/-! # Properties C106, C107: clear-sky detection -/

noncomputable section
open scoped Classical
open Real
namespace Pvlib.Props.ClearskyDetect
open Fl Pvlib.Clearsky

/-! ### C106: the inputs and the inferred limits -/

/-- Equally spaced times, `sec` seconds apart (less than a day). -/
def EverySec (times : ℕ → ℤ) (n : ℕ) (sec : ℤ) : Prop :=
  3 ≤ n ∧ 0 < sec ∧ sec < 86400 ∧ ∀ i, i + 1 < n → times (i + 1) - times i = sec

/-- A day of five-minute data. -/
theorem demo_day : EverySec (fun i => 300 * i) 288 300 := ⟨by norm_num, by norm_num, by norm_num, fun i _ => by push_cast; ring⟩

private theorem intervals {times : ℕ → ℤ} {n : ℕ} {sec : ℤ} (h : EverySec times n sec) (W : ℝ) :
    Temperature.sampleIntervals times n W = .ok ((sec : ℝ) / 60, ⌊W / ((sec : ℝ) / 60)⌋₊) := by
  obtain ⟨h3, h0, h1, hd⟩ := h
  have e : times 1 - times 0 = sec := hd 0 (by omega)
  have em : sec % 86400 = sec := Int.emod_eq_of_lt h0.le h1
  have hc : 3 ≤ n ∧ times 1 - times 0 ≠ 0 ∧ ∀ i, i + 1 < n → times (i + 1) - times i = times 1 - times 0 :=
    ⟨h3, by omega, fun i hi => by rw [e]; exact hd i hi⟩
  unfold Temperature.sampleIntervals
  rw [if_pos hc]
  simp only [e, em]
  rw [if_neg h0.ne']

/-- **C106**: with explicit limits, ValueError exactly when a window has fewer than three samples or the data are shorter than a
window; otherwise the iteration is run, with the window length and interval in minutes. -/
theorem detect_explicit {times : ℕ → ℤ} {n : ℕ} {sec : ℤ} (h : EverySec times n sec) (meas clear : ℕ → Fl) (L : Limits) (k : ℕ) :
    detectClearsky meas clear times n false L k =
      if ⌊L.window_length / ((sec : ℝ) / 60)⌋₊ < 3 ∨ n < ⌊L.window_length / ((sec : ℝ) / 60)⌋₊ then .error .valueError
      else detectLoop n ⌊L.window_length / ((sec : ℝ) / 60)⌋₊ ((sec : ℝ) / 60) L meas clear k 1 := by
  unfold detectClearsky
  rw [intervals h]
  simp only [Except.bind, Bool.false_eq_true, if_false]
  by_cases h1 : ⌊L.window_length / ((sec : ℝ) / 60)⌋₊ < 3
  · simp [h1]
  · by_cases h2 : n < ⌊L.window_length / ((sec : ℝ) / 60)⌋₊
    · simp [h2]
    · simp [h1, h2]

example := detect_explicit demo_day (fun _ => 500) (fun _ => 510) {} 20

/-- **C106**: with inferred limits, ValueError when the interval is below one or above thirty minutes; otherwise the call is the same
as one with the inferred limits given explicitly (the limits passed by the user are not used). -/
theorem detect_infer {times : ℕ → ℤ} {n : ℕ} {sec : ℤ} (h : EverySec times n sec) (meas clear : ℕ → Fl) (L : Limits) (k : ℕ) :
    ((sec < 60 ∨ 1800 < sec) → detectClearsky meas clear times n true L k = .error .valueError) ∧
    (60 ≤ sec → sec ≤ 1800 → ∃ L', getThreshold ((sec : ℝ) / 60) = .ok L' ∧
      detectClearsky meas clear times n true L k = detectClearsky meas clear times n false L' k) := by
  constructor
  · intro hs
    have hc : (sec : ℝ) / 60 < 1 ∨ 30 < (sec : ℝ) / 60 := by
      rcases hs with hs | hs
      · left; rw [div_lt_one (by norm_num)]; exact_mod_cast hs
      · right; rw [lt_div_iff₀ (by norm_num)]; norm_num; exact_mod_cast hs
    unfold detectClearsky
    rw [intervals h]
    simp [Except.bind, getThreshold, hc]
  · intro h1 h2
    have hc : ¬ ((sec : ℝ) / 60 < 1 ∨ 30 < (sec : ℝ) / 60) := by
      have h1' : (60 : ℝ) ≤ sec := by exact_mod_cast h1
      have h2' : (sec : ℝ) ≤ 1800 := by exact_mod_cast h2
      push Not
      constructor
      · rw [le_div_iff₀ (by norm_num)]; linarith
      · rw [div_le_iff₀ (by norm_num)]; linarith
    have hok : ∃ L', getThreshold ((sec : ℝ) / 60) = .ok L' := ⟨_, by unfold getThreshold; rw [if_neg hc]⟩
    obtain ⟨L', hL⟩ := hok
    refine ⟨L', hL, ?_⟩
    unfold detectClearsky
    rw [intervals h, intervals h]
    simp [Except.bind, hL, intervals h]

example := (detect_infer demo_day (fun _ => 500) (fun _ => 510) {} 20).2 (by norm_num) (by norm_num)

/-- **C106**: `max_iterations=0` on valid data ends in UnboundLocalError instead of a result. -/
theorem detect_no_iterations {times : ℕ → ℤ} {n : ℕ} {sec : ℤ} (h : EverySec times n sec) (meas clear : ℕ → Fl) (L : Limits)
    (h3 : 3 ≤ ⌊L.window_length / ((sec : ℝ) / 60)⌋₊) (hn : ⌊L.window_length / ((sec : ℝ) / 60)⌋₊ ≤ n) :
    detectClearsky meas clear times n false L 0 = .error .unboundLocal := by
  rw [detect_explicit h, if_neg (by push Not; exact ⟨h3, hn⟩)]
  rfl

private theorem interp4 (a b c d x : ℝ) : npInterp [(1, a), (5, b), (15, c), (30, d)] x =
    if x ≤ 1 then a else if x < 5 then a + (b - a) / (5 - 1) * (x - 1)
    else if x ≤ 5 then b else if x < 15 then b + (c - b) / (15 - 5) * (x - 5)
    else if x ≤ 15 then c else if x < 30 then c + (d - c) / (30 - 15) * (x - 15) else d := rfl

private theorem interp4_mono {a b c d x y : ℝ} (hab : a ≤ b) (hbc : b ≤ c) (hcd : c ≤ d) (h : x ≤ y) :
    npInterp [(1, a), (5, b), (15, c), (30, d)] x ≤ npInterp [(1, a), (5, b), (15, c), (30, d)] y := by
  apply Linke.interp_mono _ _ _ h
  · unfold Linke.Increasing; simp; norm_num
  · simp; exact ⟨⟨hab, hab.trans hbc, hab.trans (hbc.trans hcd)⟩, ⟨hbc, hbc.trans hcd⟩, hcd⟩

/-- **C106**: the inferred limits are the published ones at 1, 5, 15 and 30 minutes, and none of them decreases as the interval
grows. -/
theorem thresholds :
    getThreshold 1 = .ok ⟨50, 75, 60, -45, 80, 0.005, 50⟩ ∧ getThreshold 5 = .ok ⟨60, 75, 65, -45, 80, 0.01, 60⟩ ∧
    getThreshold 15 = .ok ⟨90, 75, 75, -45, 80, 0.032, 75⟩ ∧ getThreshold 30 = .ok ⟨120, 75, 90, -45, 80, 0.07, 96⟩ ∧
    ∀ (x y : ℝ) (L M : Limits), x ≤ y → getThreshold x = .ok L → getThreshold y = .ok M →
      L.window_length ≤ M.window_length ∧ L.mean_diff = 75 ∧ M.mean_diff = 75 ∧ L.max_diff ≤ M.max_diff ∧
      L.lower_line_length = -45 ∧ L.upper_line_length = 80 ∧ L.var_diff ≤ M.var_diff ∧ L.slope_dev ≤ M.slope_dev := by
  refine ⟨?_, ?_, ?_, ?_, ?_⟩
  · unfold getThreshold; rw [if_neg (by norm_num)]; simp [interp4]
  · unfold getThreshold; rw [if_neg (by norm_num)]; norm_num [interp4]
  · unfold getThreshold; rw [if_neg (by norm_num)]; norm_num [interp4]
  · unfold getThreshold; rw [if_neg (by norm_num)]; norm_num [interp4]
  · intro x y L M hxy hL hM
    unfold getThreshold at hL hM
    split_ifs at hL hM
    cases hL; cases hM
    have hconst : ∀ a z : ℝ, npInterp [(1, a), (5, a), (15, a), (30, a)] z = a := fun a z => by rw [interp4]; simp
    refine ⟨interp4_mono (by norm_num) (by norm_num) (by norm_num) hxy, hconst _ _, hconst _ _,
      interp4_mono (by norm_num) (by norm_num) (by norm_num) hxy, hconst _ _, hconst _ _,
      interp4_mono (by norm_num) (by norm_num) (by norm_num) hxy, interp4_mono (by norm_num) (by norm_num) (by norm_num) hxy⟩

/-! ### C107: the result -/

/-- The criteria for the window of samples `w, ..., w+s-1`, at clear-sky scale `alpha`: mean and maximum of the measured values close
to those of the scaled clear-sky values; difference of line lengths within bounds; normalised standard deviation of the measured
slopes small; largest difference of successive changes small; and the clear-sky mean neither zero nor NaN. -/
structure WindowClear (s : ℕ) (dt : ℝ) (L : Limits) (meas clear : ℕ → Fl) (alpha : Fl) (w : ℕ) : Prop where
  mean : Fl.abs (meanOf (window meas w s) - alpha * meanOf (window clear w s)) < fin L.mean_diff
  max : Fl.abs (maxOf (window meas w s) - alpha * maxOf (window clear w s)) < fin L.max_diff
  lineLow : fin L.lower_line_length <
    Fl.sum ((List.range (s - 1)).map fun (k : ℕ) => Fl.sqrt ((meas (w + k + 1) - meas (w + k)) ^ 2 + fin dt ^ 2)) -
    Fl.sum ((List.range (s - 1)).map fun (k : ℕ) => Fl.sqrt ((alpha * clear (w + k + 1) - alpha * clear (w + k)) ^ 2 + fin dt ^ 2))
  lineHigh :
    Fl.sum ((List.range (s - 1)).map fun (k : ℕ) => Fl.sqrt ((meas (w + k + 1) - meas (w + k)) ^ 2 + fin dt ^ 2)) -
    Fl.sum ((List.range (s - 1)).map fun (k : ℕ) => Fl.sqrt ((alpha * clear (w + k + 1) - alpha * clear (w + k)) ^ 2 + fin dt ^ 2))
      < fin L.upper_line_length
  slope : stdOf ((List.range (s - 1)).map fun (k : ℕ) => (meas (w + k + 1) - meas (w + k)) / fin dt) / meanOf (window meas w s)
    < fin L.var_diff
  change : maxOf ((List.range (s - 1)).map fun (k : ℕ) =>
    Fl.abs (meas (w + k + 1) - alpha * clear (w + k + 1) - (meas (w + k) - alpha * clear (w + k)))) < fin L.slope_dev
  day : ¬ eqv (meanOf (window clear w s)) 0 ∧ meanOf (window clear w s) ≠ nan

private theorem centered_at {n s w : ℕ} (hw : w < n - s + 1) (v : ℕ → Fl) : centered n s v (w + s / 2) = v w := by
  simp [centered, hw]

private theorem all_iff {n s w : ℕ} (hw : w < n - s + 1) (dt : ℝ) (L : Limits) (meas clear : ℕ → Fl) (alpha : Fl) :
    (flags n s dt L meas clear alpha).all (w + s / 2) ↔ WindowClear s dt L meas clear alpha w := by
  simp only [Flags.all, flags, meanSeries, maxSeries, lineLength, slopeNstd, maxDiff, centered_at hw, isnan]
  constructor
  · rintro ⟨a, b, ⟨c, c'⟩, d, e, f⟩
    exact ⟨a, b, c, c', d, e, f⟩
  · rintro ⟨a, b, c, c', d, e, f⟩
    exact ⟨a, b, ⟨c, c'⟩, d, e, f⟩

/-- **C107**: whatever the data, when the call returns there is a scale - the one used in the last pass - such that a sample is clear
exactly when it belongs to a window of consecutive samples that meets all criteria at that scale; the returned scale is the one
recomputed from these samples; and the warning is issued exactly when the two differ in the fourth decimal. -/
theorem detection_spec {times : ℕ → ℤ} {n : ℕ} {sec : ℤ} (h : EverySec times n sec) {meas clear : ℕ → Fl} {L : Limits} {k : ℕ}
    {D : Detection} (hD : detectClearsky meas clear times n false L k = .ok D) :
    ∃ a : Fl, ∃ s : ℕ, s = ⌊L.window_length / ((sec : ℝ) / 60)⌋₊ ∧ 3 ≤ s ∧ s ≤ n ∧
      (∀ j, D.samples j ↔ ∃ w, w + s ≤ n ∧ w ≤ j ∧ j < w + s ∧ WindowClear s ((sec : ℝ) / 60) L meas clear a w) ∧
      D.alpha = newAlpha n meas clear D.samples a ∧
      ∃ r r' : ℤ, pyRound (D.alpha * 10000) = .ok r ∧ pyRound (a * 10000) = .ok r' ∧ (D.warned = true ↔ r ≠ r') := by
  rw [detect_explicit h] at hD
  split_ifs at hD with hc
  push Not at hc
  generalize (1 : Fl) = a0 at hD
  induction k generalizing a0 with
  | zero => cases hD
  | succ k ih =>
    unfold detectLoop at hD
    dsimp only at hD
    cases h1 : pyRound (newAlpha n meas clear (clearSamples n ⌊L.window_length / ((sec : ℝ) / 60)⌋₊
      (flags n ⌊L.window_length / ((sec : ℝ) / 60)⌋₊ ((sec : ℝ) / 60) L meas clear a0)) a0 * 10000) with
    | error e => rw [h1] at hD; cases hD
    | ok r =>
      rw [h1] at hD
      cases h2 : pyRound (a0 * 10000) with
      | error e => rw [h2] at hD; cases hD
      | ok r' =>
        rw [h2] at hD
        simp only [Except.bind] at hD
        have hsamp : ∀ j, clearSamples n ⌊L.window_length / ((sec : ℝ) / 60)⌋₊
            (flags n ⌊L.window_length / ((sec : ℝ) / 60)⌋₊ ((sec : ℝ) / 60) L meas clear a0) j ↔
            ∃ w, w + ⌊L.window_length / ((sec : ℝ) / 60)⌋₊ ≤ n ∧ w ≤ j ∧ j < w + ⌊L.window_length / ((sec : ℝ) / 60)⌋₊ ∧
              WindowClear ⌊L.window_length / ((sec : ℝ) / 60)⌋₊ ((sec : ℝ) / 60) L meas clear a0 w := by
          intro j
          unfold clearSamples
          constructor
          · rintro ⟨w, hw, hf, h3, h4⟩
            exact ⟨w, by omega, h3, h4, (all_iff hw _ _ _ _ _).mp hf⟩
          · rintro ⟨w, hw, h3, h4, hf⟩
            have hw' : w < n - ⌊L.window_length / ((sec : ℝ) / 60)⌋₊ + 1 := by omega
            exact ⟨w, hw', (all_iff hw' _ _ _ _ _).mpr hf, h3, h4⟩
        by_cases hr : r = r'
        · rw [if_pos hr] at hD
          cases hD
          exact ⟨a0, _, rfl, hc.1, hc.2, hsamp, rfl, r, r', h1, h2, by simp [hr]⟩
        · rw [if_neg hr] at hD
          by_cases hk : k = 0
          · rw [if_pos hk] at hD
            cases hD
            exact ⟨a0, _, rfl, hc.1, hc.2, hsamp, rfl, r, r', h1, h2, by simp [hr]⟩
          · rw [if_neg hk] at hD
            exact ih _ hD

private theorem foldl_nan (l : List Fl) : l.foldl (· + ·) nan = nan := by
  induction l with
  | nil => rfl
  | cons x t ih => simpa using ih

private theorem sum_nan {l : List Fl} (h : nan ∈ l) : Fl.sum l = nan := by
  unfold Fl.sum
  generalize (0 : Fl) = a
  induction l generalizing a with
  | nil => simp at h
  | cons x t ih =>
    rcases List.mem_cons.mp h with rfl | h
    · simp only [List.foldl_cons, add_nan, foldl_nan]
    · exact ih h _

private theorem mean_nan {x : ℕ → Fl} {w s j : ℕ} (h1 : w ≤ j) (h2 : j < w + s) (hx : x j = nan) : meanOf (window x w s) = nan := by
  unfold meanOf
  rw [sum_nan, nan_div]
  unfold window
  exact List.mem_map.mpr ⟨j - w, List.mem_range.mpr (by omega), by rw [show w + (j - w) = j by omega, hx]⟩

/-- **C107**: a sample whose measured or clear-sky value is NaN is never reported clear, nor does it lie in a window that is. -/
theorem nan_not_clear {s : ℕ} {dt : ℝ} {L : Limits} {meas clear : ℕ → Fl} {a : Fl} {w j : ℕ} (h1 : w ≤ j) (h2 : j < w + s)
    (hn : meas j = nan ∨ clear j = nan) : ¬ WindowClear s dt L meas clear a w := by
  intro h
  rcases hn with hn | hn
  · have := h.mean
    rw [mean_nan h1 h2 hn] at this; simp at this
  · exact h.day.2 (mean_nan h1 h2 hn)

example := nan_not_clear (s := 3) (dt := 5) (L := {}) (meas := fun _ => nan) (clear := fun _ => 500) (a := 1) (w := 4) (j := 5) (by decide)
  (by decide) (.inl rfl)

theorem nan_sample_not_clear {times : ℕ → ℤ} {n : ℕ} {sec : ℤ} (h : EverySec times n sec) {meas clear : ℕ → Fl} {L : Limits} {k : ℕ}
    {D : Detection} (hD : detectClearsky meas clear times n false L k = .ok D) {j : ℕ} (hn : meas j = nan ∨ clear j = nan) :
    ¬ D.samples j := by
  obtain ⟨a, s, _, _, _, hs, _⟩ := detection_spec h hD
  rw [hs]
  rintro ⟨w, _, h1, h2, hw⟩
  exact nan_not_clear h1 h2 hn hw

/-! The scale factor. -/

/-- The selected positions. -/
def sel (n : ℕ) (S : ℕ → Prop) : List ℕ := (List.range n).filter fun j => decide (S j)

private theorem sumOver_fin (n : ℕ) (S : ℕ → Prop) (x : ℕ → ℝ) : sumOver n S (fun j => fin (x j)) = fin ((sel n S).map x).sum := by
  unfold sumOver sel
  have : (List.range n).filter (fun j => decide (S j ∧ fin (x j) ≠ nan)) = (List.range n).filter fun j => decide (S j) := by
    apply List.filter_congr; intro j _; simp
  rw [this, ← sum_fin, List.map_map]; rfl

/-- Sum of squared differences between measurements and scaled clear-sky values over the selected samples. -/
def sse (n : ℕ) (S : ℕ → Prop) (m c : ℕ → ℝ) (b : ℝ) : ℝ := ((sel n S).map fun j => (m j - b * c j) ^ 2).sum

private theorem sse_expand (n : ℕ) (S : ℕ → Prop) (m c : ℕ → ℝ) (b : ℝ) :
    sse n S m c b = ((sel n S).map fun j => m j ^ 2).sum - 2 * b * ((sel n S).map fun j => m j * c j).sum +
      b ^ 2 * ((sel n S).map fun j => c j ^ 2).sum := by
  unfold sse
  induction sel n S with
  | nil => simp
  | cons x t ih => simp only [List.map_cons, List.sum_cons, ih]; ring

/-- **C107**: for finite data the recomputed scale minimises the sum of squared differences between the measurements and the scaled
clear-sky values over the clear samples; it is left unchanged when there are no clear samples. -/
theorem alpha_least_squares (n : ℕ) (S : ℕ → Prop) (m c : ℕ → ℝ) (a : ℝ) :
    ∃ b : ℝ, newAlpha n (fun j => fin (m j)) (fun j => fin (c j)) S (fin a) = fin b ∧ (∀ b', sse n S m c b ≤ sse n S m c b') ∧
      ((∀ j < n, ¬ S j) → b = a) := by
  have hC : sumOver n S (fun j => fin (c j) ^ 2) = fin ((sel n S).map fun j => c j ^ 2).sum := by
    have := sumOver_fin n S fun j => c j ^ 2
    simpa using this
  have hM : sumOver n S (fun j => fin (m j) * fin (c j)) = fin ((sel n S).map fun j => m j * c j).sum := by
    have := sumOver_fin n S fun j => m j * c j
    simpa using this
  have hcnn : 0 ≤ ((sel n S).map fun j => c j ^ 2).sum := List.sum_nonneg (by
    intro x hx; obtain ⟨j, _, rfl⟩ := List.mem_map.mp hx; positivity)
  by_cases h0 : ((sel n S).map fun j => c j ^ 2).sum = 0
  · refine ⟨a, ?_, ?_, fun _ => rfl⟩
    · unfold newAlpha
      rw [hC, h0]; simp
    · have hz : ∀ j ∈ sel n S, c j = 0 := by
        have h1 : ∀ l : List ℕ, (l.map fun j => c j ^ 2).sum = 0 → ∀ j ∈ l, c j = 0 := by
          intro l
          induction l with
          | nil => simp
          | cons x t ih =>
            intro hs
            have ht : 0 ≤ (t.map fun j => c j ^ 2).sum := List.sum_nonneg (by
              intro x hx; obtain ⟨j, _, rfl⟩ := List.mem_map.mp hx; positivity)
            simp only [List.map_cons, List.sum_cons] at hs
            have hx : c x ^ 2 = 0 := by nlinarith [sq_nonneg (c x)]
            have hx' : c x = 0 := by simpa using hx
            intro j hj
            rcases List.mem_cons.mp hj with rfl | hj
            · exact hx'
            · exact ih (by linarith) j hj
        exact h1 _ h0
      intro b'
      apply le_of_eq
      unfold sse
      congr 1
      apply List.map_congr_left
      intro j hj
      rw [hz j hj]; ring
  · have hpos : 0 < ((sel n S).map fun j => c j ^ 2).sum := lt_of_le_of_ne hcnn (Ne.symm h0)
    refine ⟨((sel n S).map fun j => m j * c j).sum / ((sel n S).map fun j => c j ^ 2).sum, ?_, ?_, ?_⟩
    · unfold newAlpha
      rw [hC, hM]
      simp [h0]
    · intro b'
      rw [sse_expand, sse_expand]
      set C := ((sel n S).map fun j => c j ^ 2).sum
      set M := ((sel n S).map fun j => m j * c j).sum
      have hb : M = (M / C) * C := by field_simp
      set b := M / C
      rw [hb]
      nlinarith [mul_nonneg hpos.le (sq_nonneg (b' - b))]
    · intro hS
      exfalso; apply h0
      have : sel n S = [] := by
        unfold sel; rw [List.filter_eq_nil_iff]; intro j hj; simpa using hS j (List.mem_range.mp hj)
      simp [this]

private theorem sumOver_gaps {n : ℕ} {S : ℕ → Prop} {x : ℕ → Fl} (hx : ∀ j, x j = nan ∨ ∃ r : ℝ, x j = fin r) :
    ∃ r : ℝ, sumOver n S x = fin r := by
  unfold sumOver
  have : ∃ l : List ℝ, ((List.range n).filter fun j => decide (S j ∧ x j ≠ nan)).map x = l.map fin := by
    have hf : ∀ j ∈ (List.range n).filter (fun j => decide (S j ∧ x j ≠ nan)), ∃ r : ℝ, x j = fin r := by
      intro j hj
      have := (of_decide_eq_true (List.mem_filter.mp hj).2).2
      rcases hx j with h | h
      · exact absurd h this
      · exact h
    revert hf
    generalize (List.range n).filter (fun j => decide (S j ∧ x j ≠ nan)) = l
    intro hf
    induction l with
    | nil => exact ⟨[], rfl⟩
    | cons a l ih =>
      obtain ⟨r, hr⟩ := hf a (by simp)
      obtain ⟨l', hl'⟩ := ih fun j hj => hf j (List.mem_cons_of_mem _ hj)
      exact ⟨r :: l', by simp [hr, hl']⟩
  obtain ⟨l, hl⟩ := this
  rw [hl, sum_fin]
  exact ⟨_, rfl⟩

private theorem newAlpha_fin {n : ℕ} {S : ℕ → Prop} {meas clear : ℕ → Fl} (hm : ∀ j, meas j = nan ∨ ∃ r : ℝ, meas j = fin r)
    (hc : ∀ j, clear j = nan ∨ ∃ r : ℝ, clear j = fin r) (a : ℝ) : ∃ b : ℝ, newAlpha n meas clear S (fin a) = fin b := by
  unfold newAlpha
  obtain ⟨C, hC⟩ := sumOver_gaps (n := n) (S := S) (x := fun j => clear j ^ 2) (by
    intro j
    rcases hc j with h | ⟨r, h⟩
    · left; rw [h]; rfl
    · right; exact ⟨r ^ 2, by rw [h]; simp⟩)
  obtain ⟨M, hM⟩ := sumOver_gaps (n := n) (S := S) (x := fun j => meas j * clear j) (by
    intro j
    rcases hc j with h | ⟨r, h⟩ <;> rcases hm j with h' | ⟨r', h'⟩
    · left; rw [h, h']; rfl
    · left; rw [h, h']; rfl
    · left; rw [h, h']; rfl
    · right; exact ⟨r' * r, by rw [h, h', fin_mul]⟩)
  dsimp only
  rw [hC, hM]
  split_ifs with h
  · exact ⟨a, rfl⟩
  · have : C ≠ 0 := by
      rintro rfl
      apply h
      right
      simp
    exact ⟨_, fin_div this⟩

/-- **C107**: for data without infinities (gaps, i.e. NaN, allowed) and at least one iteration the call always returns. -/
theorem detect_total {times : ℕ → ℤ} {n : ℕ} {sec : ℤ} (h : EverySec times n sec) {meas clear : ℕ → Fl}
    (hm : ∀ j, meas j = nan ∨ ∃ r : ℝ, meas j = fin r) (hc : ∀ j, clear j = nan ∨ ∃ r : ℝ, clear j = fin r) (L : Limits) (k : ℕ)
    (h3 : 3 ≤ ⌊L.window_length / ((sec : ℝ) / 60)⌋₊) (hn : ⌊L.window_length / ((sec : ℝ) / 60)⌋₊ ≤ n) :
    ∃ D, detectClearsky meas clear times n false L (k + 1) = .ok D := by
  rw [detect_explicit h, if_neg (by push Not; exact ⟨h3, hn⟩)]
  have : (1 : Fl) = fin 1 := rfl
  rw [this]
  generalize (1 : ℝ) = a
  induction k generalizing a with
  | zero =>
    unfold detectLoop
    dsimp only
    obtain ⟨b, hb⟩ := newAlpha_fin hm hc a (n := n) (S := clearSamples n ⌊L.window_length / ((sec : ℝ) / 60)⌋₊
      (flags n ⌊L.window_length / ((sec : ℝ) / 60)⌋₊ ((sec : ℝ) / 60) L meas clear (fin a)))
    rw [hb]
    simp only [ofNat_eq, fin_mul, pyRound, Except.bind]
    split_ifs <;> exact ⟨_, rfl⟩
  | succ k ih =>
    unfold detectLoop
    dsimp only
    obtain ⟨b, hb⟩ := newAlpha_fin hm hc a (n := n) (S := clearSamples n ⌊L.window_length / ((sec : ℝ) / 60)⌋₊
      (flags n ⌊L.window_length / ((sec : ℝ) / 60)⌋₊ ((sec : ℝ) / 60) L meas clear (fin a)))
    rw [hb]
    simp only [ofNat_eq, fin_mul, pyRound, Except.bind]
    split_ifs
    · exact ⟨_, rfl⟩
    · exact ⟨_, rfl⟩
    · exact ih b

/-- A day with a gap in the measurements. -/
theorem demo_detect : ∃ D, detectClearsky (fun j => if j = 100 then nan else fin (500 + j)) (fun j => fin (510 + j)) (fun i => 300 * i) 288 false
    { window_length := 50 } (19 + 1) = .ok D :=
  detect_total demo_day (fun j => by split_ifs <;> simp) (fun j => .inr ⟨_, rfl⟩) { window_length := 50 } 19 (by norm_num) (by norm_num)

example := detection_spec demo_day demo_detect.choose_spec
example := nan_sample_not_clear demo_day demo_detect.choose_spec (j := 100) (.inl (if_pos rfl))

/-! Measurements equal to the clear-sky values. -/

private theorem maxOf_fin (l : List ℝ) (a : ℝ) : ∃ r : ℝ, (l.map fin).foldl maximum (fin a) = fin r := by
  induction l generalizing a with
  | nil => exact ⟨a, rfl⟩
  | cons x t ih => simpa using ih (max a x)

private theorem maxOf_ne {l : List ℝ} (h : l ≠ []) : ∃ r : ℝ, maxOf (l.map fin) = fin r := by
  cases l with
  | nil => exact absurd rfl h
  | cons x t => simpa [maxOf] using maxOf_fin t x

private theorem maxOf_zero (m : ℕ) (h : 0 < m) : maxOf ((List.range m).map fun _ => fin 0) = fin 0 := by
  have h0 : ∀ l : List ℕ, (l.map fun _ => fin 0).foldl maximum (fin 0) = fin 0 := by
    intro l; induction l with
    | nil => rfl
    | cons x t ih => simpa using ih
  obtain ⟨k, rfl⟩ : ∃ k, m = k + 1 := ⟨m - 1, by omega⟩
  rw [List.range_succ_eq_map, List.map_cons, List.map_map]
  unfold maxOf
  rw [List.foldl_cons, maximum_ninf_fin]
  have := h0 ((List.range k).map Nat.succ)
  rwa [List.map_map] at this

private theorem mean_fin (x : ℕ → ℝ) (w s : ℕ) (hs : 0 < s) :
    meanOf (window (fun j => fin (x j)) w s) = fin (((List.range s).map fun (k : ℕ) => x (w + k)).sum / s) := by
  have e : window (fun j => fin (x j)) w s = ((List.range s).map fun (k : ℕ) => x (w + k)).map fin := by
    simp [window, Function.comp_def]
  have h0 : (s : ℝ) ≠ 0 := by exact_mod_cast hs.ne'
  unfold meanOf
  rw [e, sum_fin]
  simp [h0]

/-- The mean of a window. -/
def windowMean (x : ℕ → ℝ) (w s : ℕ) : ℝ := ((List.range s).map fun (k : ℕ) => x (w + k)).sum / s

private theorem self_window {s : ℕ} {dt : ℝ} {L : Limits} {m : ℕ → ℝ} {w : ℕ} (hs : 3 ≤ s) (h1 : 0 < L.mean_diff) (h2 : 0 < L.max_diff)
    (h3 : L.lower_line_length < 0) (h4 : 0 < L.upper_line_length) (h5 : 0 < L.slope_dev) :
    WindowClear s dt L (fun j => fin (m j)) (fun j => fin (m j)) (fin 1) w ↔
      windowMean m w s ≠ 0 ∧
      stdOf ((List.range (s - 1)).map fun (k : ℕ) => fin (m (w + k + 1) - m (w + k)) / fin dt) / fin (windowMean m w s)
        < fin L.var_diff := by
  have hm : meanOf (window (fun j => fin (m j)) w s) = fin (windowMean m w s) := mean_fin m w s (by omega)
  obtain ⟨r, hr⟩ : ∃ r : ℝ, maxOf (window (fun j => fin (m j)) w s) = fin r := by
    have e : window (fun j => fin (m j)) w s = ((List.range s).map fun (k : ℕ) => m (w + k)).map fin := by
      simp [window, Function.comp_def]
    rw [e]
    apply maxOf_ne
    intro h
    have := congrArg List.length h
    simp at this; omega
  have hl : ∀ k : ℕ, Fl.sqrt (fin (m (w + k + 1) - m (w + k)) ^ 2 + fin dt ^ 2) =
      fin (Real.sqrt ((m (w + k + 1) - m (w + k)) ^ 2 + dt ^ 2)) := by
    intro k
    simp only [fin_pow, fin_add]
    rw [sqrt_fin (by positivity)]
  have hsum : ∃ q : ℝ, Fl.sum ((List.range (s - 1)).map fun (k : ℕ) => Fl.sqrt (fin (m (w + k + 1) - m (w + k)) ^ 2 + fin dt ^ 2))
      = fin q := by
    refine ⟨((List.range (s - 1)).map fun (k : ℕ) => Real.sqrt ((m (w + k + 1) - m (w + k)) ^ 2 + dt ^ 2)).sum, ?_⟩
    · simp only [hl]
      rw [show ((List.range (s - 1)).map fun (k : ℕ) => fin (Real.sqrt ((m (w + k + 1) - m (w + k)) ^ 2 + dt ^ 2))) =
        ((List.range (s - 1)).map fun (k : ℕ) => Real.sqrt ((m (w + k + 1) - m (w + k)) ^ 2 + dt ^ 2)).map fin by
          simp [Function.comp_def], sum_fin]
  obtain ⟨q, hq⟩ := hsum
  constructor
  · intro h
    have hd := h.day
    have hsl := h.slope
    rw [hm] at hd hsl
    refine ⟨?_, by simpa using hsl⟩
    intro h0
    apply hd.1
    rw [h0]; simp
  · rintro ⟨h0, hsl⟩
    refine ⟨?_, ?_, ?_, ?_, ?_, ?_, ?_⟩
    · rw [hm]; simpa using h1
    · rw [hr]; simpa using h2
    · simp only [fin_mul, one_mul, fin_sub, hq]; simpa using h3
    · simp only [fin_mul, one_mul, fin_sub, hq]; simpa using h4
    · rw [hm]; simpa using hsl
    · simp only [fin_mul, one_mul, fin_sub, sub_self, abs_fin, abs_zero]
      rw [maxOf_zero _ (by omega)]; simpa using h5
    · rw [hm]; simpa using h0

/-- **C107**: measurements equal to the clear-sky values keep the scale 1 (no warning, one pass), and a sample is clear exactly when
some window around it has a non-zero mean and a small enough variability: no other criterion can reject it. -/
theorem self_detect {times : ℕ → ℤ} {n : ℕ} {sec : ℤ} (h : EverySec times n sec) (m : ℕ → ℝ) (L : Limits) (k : ℕ)
    (hs : 3 ≤ ⌊L.window_length / ((sec : ℝ) / 60)⌋₊) (hn : ⌊L.window_length / ((sec : ℝ) / 60)⌋₊ ≤ n)
    (h1 : 0 < L.mean_diff) (h2 : 0 < L.max_diff) (h3 : L.lower_line_length < 0) (h4 : 0 < L.upper_line_length)
    (h5 : 0 < L.slope_dev) :
    ∃ D, detectClearsky (fun j => fin (m j)) (fun j => fin (m j)) times n false L (k + 1) = .ok D ∧ D.alpha = 1 ∧ D.warned = false ∧
      ∀ j, D.samples j ↔ ∃ s w, s = ⌊L.window_length / ((sec : ℝ) / 60)⌋₊ ∧ w + s ≤ n ∧ w ≤ j ∧ j < w + s ∧ windowMean m w s ≠ 0 ∧
        stdOf ((List.range (s - 1)).map fun (i : ℕ) => fin (m (w + i + 1) - m (w + i)) / fin ((sec : ℝ) / 60)) /
          fin (windowMean m w s) < fin L.var_diff := by
  rw [detect_explicit h, if_neg (by push Not; exact ⟨hs, hn⟩)]
  have e1 : (1 : Fl) = fin 1 := rfl
  have hnew : ∀ S, newAlpha n (fun j => fin (m j)) (fun j => fin (m j)) S (fin 1) = fin 1 := by
    intro S
    have hC : sumOver n S (fun j => fin (m j) ^ 2) = fin ((sel n S).map fun j => m j ^ 2).sum := by
      simpa using sumOver_fin n S fun j => m j ^ 2
    have hM : sumOver n S (fun j => fin (m j) * fin (m j)) = fin ((sel n S).map fun j => m j ^ 2).sum := by
      have := sumOver_fin n S fun j => m j * m j
      simp only [← pow_two] at this
      simpa [← pow_two] using this
    unfold newAlpha
    rw [hC, hM]
    by_cases h0 : ((sel n S).map fun j => m j ^ 2).sum = 0
    · rw [h0]; simp
    · simp [h0]
  refine ⟨⟨clearSamples n ⌊L.window_length / ((sec : ℝ) / 60)⌋₊ (flags n ⌊L.window_length / ((sec : ℝ) / 60)⌋₊ ((sec : ℝ) / 60) L
    (fun j => fin (m j)) (fun j => fin (m j)) (fin 1)), flags n ⌊L.window_length / ((sec : ℝ) / 60)⌋₊ ((sec : ℝ) / 60) L
    (fun j => fin (m j)) (fun j => fin (m j)) (fin 1), fin 1, false⟩, ?_, e1.symm, rfl, ?_⟩
  · unfold detectLoop
    dsimp only
    rw [e1, hnew]
    simp only [ofNat_eq, fin_mul, pyRound, Except.bind, if_true]
  · intro j
    dsimp only
    unfold clearSamples
    constructor
    · rintro ⟨w, hw, hf, h6, h7⟩
      have hc := (all_iff hw _ _ _ _ _).mp hf
      obtain ⟨a, b⟩ := (self_window hs h1 h2 h3 h4 h5).mp hc
      exact ⟨_, w, rfl, by omega, h6, h7, a, b⟩
    · rintro ⟨s, w, rfl, hw, h6, h7, a, b⟩
      have hw' : w < n - ⌊L.window_length / ((sec : ℝ) / 60)⌋₊ + 1 := by omega
      exact ⟨w, hw', (all_iff hw' _ _ _ _ _).mpr ((self_window hs h1 h2 h3 h4 h5).mpr ⟨a, b⟩), h6, h7⟩

example := self_detect demo_day (fun j => 500 + j) { window_length := 50 } 19 (by norm_num) (by norm_num) (by norm_num) (by norm_num)
  (by norm_num) (by norm_num) (by norm_num)

/-! Data with infinities: no window holding one is clear, so the scale stays finite. -/

private theorem foldl_inf (l : List Fl) : ∀ a : Fl, (∀ r, a ≠ fin r) → ∀ r, l.foldl (· + ·) a ≠ fin r := by
  induction l with
  | nil => intro a h r; exact h r
  | cons x t ih =>
    intro a h
    apply ih
    intro r
    cases a with
    | fin q => exact absurd rfl (h q)
    | nan => simp
    | pinf => cases x <;> simp
    | ninf => cases x <;> simp

private theorem sum_fin_elem {l : List Fl} {r : ℝ} (h : Fl.sum l = fin r) : ∀ x ∈ l, ∃ q : ℝ, x = fin q := by
  have key : ∀ (l : List Fl) (a r : ℝ), l.foldl (· + ·) (fin a) = fin r → ∀ x ∈ l, ∃ q : ℝ, x = fin q := by
    intro l
    induction l with
    | nil => simp
    | cons y t ih =>
      intro a r h x hx
      rw [List.foldl_cons] at h
      cases y with
      | fin q =>
        rcases List.mem_cons.mp hx with rfl | hx
        · exact ⟨q, rfl⟩
        · rw [fin_add] at h; exact ih _ _ h x hx
      | nan => exact absurd h (foldl_inf t _ (by intro r; simp) r)
      | pinf => exact absurd h (foldl_inf t _ (by intro r; simp) r)
      | ninf => exact absurd h (foldl_inf t _ (by intro r; simp) r)
  exact key l 0 r h

private theorem mean_elem {x : ℕ → Fl} {w s : ℕ} (hs : 0 < s) {r : ℝ} (h : meanOf (window x w s) = fin r) {j : ℕ} (h1 : w ≤ j)
    (h2 : j < w + s) : ∃ q : ℝ, x j = fin q := by
  have hl : ((window x w s).length : ℝ) = s := by simp [window]
  have h0 : (0 : ℝ) < s := by exact_mod_cast hs
  unfold meanOf at h
  rw [hl] at h
  have : ∃ q : ℝ, Fl.sum (window x w s) = fin q := by
    cases hx : Fl.sum (window x w s) with
    | fin q => exact ⟨q, rfl⟩
    | nan => rw [hx] at h; simp at h
    | pinf => rw [hx, pinf_div_fin, if_neg h0.not_gt] at h; cases h
    | ninf => rw [hx, ninf_div_fin, if_neg h0.not_gt] at h; cases h
  obtain ⟨q, hq⟩ := this
  refine sum_fin_elem hq (x j) ?_
  unfold window
  exact List.mem_map.mpr ⟨j - w, List.mem_range.mpr (by omega), by rw [show w + (j - w) = j by omega]⟩

private theorem abs_sub_fin {x y : Fl} {d : ℝ} (h : Fl.abs (x - y) < fin d) : (∃ q : ℝ, x = fin q) ∧ ∃ q : ℝ, y = fin q := by
  cases x <;> cases y <;> simp at h ⊢

/-- **C107**: every value - measured and clear-sky - of a window that meets the criteria is finite. -/
theorem window_finite {s : ℕ} {dt : ℝ} {L : Limits} {meas clear : ℕ → Fl} {a : ℝ} {w j : ℕ} (h1 : w ≤ j) (h2 : j < w + s)
    (h : WindowClear s dt L meas clear (fin a) w) : (∃ q : ℝ, meas j = fin q) ∧ ∃ q : ℝ, clear j = fin q := by
  obtain ⟨⟨q, hq⟩, q', hq'⟩ := abs_sub_fin h.mean
  refine ⟨mean_elem (by omega) hq h1 h2, ?_⟩
  obtain ⟨_, p, _, hp, _⟩ := mul_eq_fin hq'
  exact mean_elem (by omega) hp h1 h2

example : ¬ WindowClear 3 5 {} (fun j => if j = 2 then pinf else fin 500) (fun _ => fin 500) (fin 1) 1 := fun h => by
  obtain ⟨⟨q, hq⟩, _⟩ := window_finite (j := 2) (by decide) (by decide) h
  simp at hq

private theorem newAlpha_real {n s : ℕ} {dt : ℝ} {L : Limits} {meas clear : ℕ → Fl} (a : ℝ) :
    ∃ b : ℝ, newAlpha n meas clear (clearSamples n s (flags n s dt L meas clear (fin a))) (fin a) = fin b := by
  set S := clearSamples n s (flags n s dt L meas clear (fin a)) with hS
  have hfin : ∀ j, S j → (∃ q : ℝ, meas j = fin q) ∧ ∃ q : ℝ, clear j = fin q := by
    rintro j ⟨w, hw, hf, h1, h2⟩
    exact window_finite h1 h2 ((all_iff hw _ _ _ _ _).mp hf)
  have cong : ∀ x y : ℕ → Fl, (∀ j, S j → x j = y j) → sumOver n S x = sumOver n S y := by
    intro x y h
    unfold sumOver
    have e : (List.range n).filter (fun j => decide (S j ∧ x j ≠ nan)) = (List.range n).filter (fun j => decide (S j ∧ y j ≠ nan)) := by
      apply List.filter_congr
      intro j _
      by_cases hj : S j
      · simp [hj, h j hj]
      · simp [hj]
    rw [e]
    congr 1
    apply List.map_congr_left
    intro j hj
    exact h j (of_decide_eq_true (List.mem_filter.mp hj).2).1
  have hm : ∀ j, (if S j then meas j else nan) = nan ∨ ∃ r : ℝ, (if S j then meas j else nan) = fin r := by
    intro j; split_ifs with h
    · exact .inr (hfin j h).1
    · exact .inl rfl
  have hc : ∀ j, (if S j then clear j else nan) = nan ∨ ∃ r : ℝ, (if S j then clear j else nan) = fin r := by
    intro j; split_ifs with h
    · exact .inr (hfin j h).2
    · exact .inl rfl
  obtain ⟨b, hb⟩ := newAlpha_fin (n := n) (S := S) hm hc a
  refine ⟨b, ?_⟩
  rw [← hb]
  unfold newAlpha
  rw [cong (fun j => clear j ^ 2) (fun j => (if S j then clear j else nan) ^ 2) (fun j hj => by rw [if_pos hj]),
    cong (fun j => meas j * clear j) (fun j => (if S j then meas j else nan) * (if S j then clear j else nan))
      (fun j hj => by rw [if_pos hj, if_pos hj])]

/-- **C107**: whatever the data - gaps, infinities - a call with at least one iteration returns: the scale is always a number, and no
rounding of it can fail. -/
theorem detect_returns {times : ℕ → ℤ} {n : ℕ} {sec : ℤ} (h : EverySec times n sec) (meas clear : ℕ → Fl) (L : Limits) (k : ℕ)
    (h3 : 3 ≤ ⌊L.window_length / ((sec : ℝ) / 60)⌋₊) (hn : ⌊L.window_length / ((sec : ℝ) / 60)⌋₊ ≤ n) :
    ∃ D, detectClearsky meas clear times n false L (k + 1) = .ok D ∧ ∃ b : ℝ, D.alpha = fin b := by
  rw [detect_explicit h, if_neg (by push Not; exact ⟨h3, hn⟩)]
  have : (1 : Fl) = fin 1 := rfl
  rw [this]
  generalize (1 : ℝ) = a
  induction k generalizing a with
  | zero =>
    unfold detectLoop
    dsimp only
    obtain ⟨b, hb⟩ := newAlpha_real a (n := n) (s := ⌊L.window_length / ((sec : ℝ) / 60)⌋₊) (dt := (sec : ℝ) / 60) (L := L)
      (meas := meas) (clear := clear)
    rw [hb]
    simp only [ofNat_eq, fin_mul, pyRound, Except.bind]
    split_ifs <;> exact ⟨_, rfl, b, rfl⟩
  | succ k ih =>
    unfold detectLoop
    dsimp only
    obtain ⟨b, hb⟩ := newAlpha_real a (n := n) (s := ⌊L.window_length / ((sec : ℝ) / 60)⌋₊) (dt := (sec : ℝ) / 60) (L := L)
      (meas := meas) (clear := clear)
    rw [hb]
    simp only [ofNat_eq, fin_mul, pyRound, Except.bind]
    split_ifs
    · exact ⟨_, rfl, b, rfl⟩
    · exact ⟨_, rfl, b, rfl⟩
    · exact ih b

example := detect_returns demo_day (fun j => if j = 100 then pinf else fin (500 + j)) (fun j => fin (510 + j)) { window_length := 50 } 19
  (by norm_num) (by norm_num)

/-! The criteria in real numbers. -/

/-- The sample standard deviation (divisor one less than the number of values). -/
def sampleStd (m : ℕ) (x : ℕ → ℝ) : ℝ :=
  Real.sqrt ((∑ k ∈ Finset.range m, (x k - (∑ i ∈ Finset.range m, x i) / m) ^ 2) / (m - 1))

/-- The length of the polyline through the values `x w, ..., x (w+s-1)`, `dt` apart. -/
def polyline (dt : ℝ) (x : ℕ → ℝ) (w s : ℕ) : ℝ :=
  ∑ k ∈ Finset.range (s - 1), Real.sqrt ((x (w + k + 1) - x (w + k)) ^ 2 + dt ^ 2)

private theorem list_sum (m : ℕ) (x : ℕ → ℝ) : ((List.range m).map x).sum = ∑ k ∈ Finset.range m, x k := by
  rw [Finset.sum_range]
  induction m with
  | zero => simp
  | succ m ih => rw [List.range_succ, List.map_append, List.sum_append, ih, Fin.sum_univ_castSucc]; simp

private theorem sum_range_fin (m : ℕ) (x : ℕ → ℝ) : Fl.sum ((List.range m).map fun (k : ℕ) => fin (x k)) = fin (∑ k ∈ Finset.range m, x k) := by
  rw [← list_sum, ← sum_fin, List.map_map]; rfl

private theorem std_real {m : ℕ} (hm : 2 ≤ m) (x : ℕ → ℝ) : stdOf ((List.range m).map fun (k : ℕ) => fin (x k)) = fin (sampleStd m x) := by
  have h0 : (m : ℝ) ≠ 0 := by positivity
  have h2 : (2 : ℝ) ≤ m := by exact_mod_cast hm
  have h1 : (m : ℝ) - 1 ≠ 0 := by linarith
  have hmean : meanOf ((List.range m).map fun (k : ℕ) => fin (x k)) = fin ((∑ k ∈ Finset.range m, x k) / m) := by
    unfold meanOf
    rw [sum_range_fin, List.length_map, List.length_range, fin_div h0]
  unfold stdOf
  rw [hmean, List.map_map, List.length_map, List.length_range]
  have := sum_range_fin m fun k => (x k - (∑ i ∈ Finset.range m, x i) / m) ^ 2
  rw [show ((fun y => (y - fin ((∑ k ∈ Finset.range m, x k) / m)) ^ 2) ∘ fun (k : ℕ) => fin (x k)) =
    fun (k : ℕ) => fin ((x k - (∑ i ∈ Finset.range m, x i) / m) ^ 2) by funext k; simp, this, fin_div h1, sqrt_fin]
  · rfl
  · apply div_nonneg
    · exact Finset.sum_nonneg fun _ _ => sq_nonneg _
    · linarith

private theorem foldl_max_real (l : List ℝ) : ∀ a : ℝ, ∃ r : ℝ, (l.map fin).foldl maximum (fin a) = fin r ∧ (r = a ∨ r ∈ l) ∧ a ≤ r ∧
    ∀ x ∈ l, x ≤ r := by
  induction l with
  | nil => intro a; exact ⟨a, rfl, .inl rfl, le_rfl, by simp⟩
  | cons x t ih =>
    intro a
    obtain ⟨r, h1, h2, h3, h4⟩ := ih (max a x)
    refine ⟨r, by simpa using h1, ?_, (le_max_left _ _).trans h3, ?_⟩
    · rcases h2 with h2 | h2
      · rcases max_choice a x with h | h
        · left; rw [h2, h]
        · right; rw [h2, h]; simp
      · right; exact List.mem_cons_of_mem _ h2
    · intro y hy
      rcases List.mem_cons.mp hy with rfl | hy
      · exact (le_max_right _ _).trans h3
      · exact h4 y hy

private theorem max_real {m : ℕ} (hm : 0 < m) (x : ℕ → ℝ) : ∃ r : ℝ, maxOf ((List.range m).map fun (k : ℕ) => fin (x k)) = fin r ∧
    IsGreatest {y | ∃ k < m, y = x k} r := by
  obtain ⟨m, rfl⟩ : ∃ k, m = k + 1 := ⟨m - 1, by omega⟩
  obtain ⟨r, h1, h2, h3, h4⟩ := foldl_max_real ((List.range m).map fun (k : ℕ) => x (k + 1)) (x 0)
  refine ⟨r, ?_, ?_, ?_⟩
  · rw [List.range_succ_eq_map, List.map_cons, List.map_map]
    unfold maxOf
    rw [List.foldl_cons, maximum_ninf_fin, ← h1, List.map_map]
    rfl
  · rcases h2 with h2 | h2
    · exact ⟨0, by omega, h2⟩
    · obtain ⟨k, hk, rfl⟩ := List.mem_map.mp h2
      exact ⟨k + 1, by have := List.mem_range.mp hk; omega, rfl⟩
  · rintro y ⟨k, hk, rfl⟩
    cases k with
    | zero => exact h3
    | succ k => exact h4 _ (List.mem_map.mpr ⟨k, List.mem_range.mpr (by omega), rfl⟩)

private theorem line_real (dt : ℝ) (x : ℕ → ℝ) (w s : ℕ) :
    Fl.sum ((List.range (s - 1)).map fun (k : ℕ) => Fl.sqrt ((fin (x (w + k + 1)) - fin (x (w + k))) ^ 2 + fin dt ^ 2)) =
      fin (polyline dt x w s) := by
  have : (fun (k : ℕ) => Fl.sqrt ((fin (x (w + k + 1)) - fin (x (w + k))) ^ 2 + fin dt ^ 2)) =
      fun (k : ℕ) => fin (Real.sqrt ((x (w + k + 1) - x (w + k)) ^ 2 + dt ^ 2)) := by
    funext k
    simp only [fin_sub, fin_pow, fin_add]
    rw [sqrt_fin (by positivity)]
  rw [this, sum_range_fin]; rfl

/-- **C107**: for finite data, in real numbers: a window of `s` samples is clear, at the scale `a`, exactly when the means differ by less
than `mean_diff`, the maxima by less than `max_diff`, the lengths of the polylines through the values by an amount between the two
bounds, the sample standard deviation of the measured slopes, relative to the (non-zero) measured mean, is below `var_diff`, every
change between neighbours differs from that of the scaled clear-sky values by less than `slope_dev`, and the clear-sky mean is not 0. -/
theorem window_real {s : ℕ} (hs : 3 ≤ s) {dt : ℝ} (hdt : 0 < dt) (L : Limits) (m c : ℕ → ℝ) (a : ℝ) (w : ℕ) {M C : ℝ}
    (hM : IsGreatest {y | ∃ k < s, y = m (w + k)} M) (hC : IsGreatest {y | ∃ k < s, y = c (w + k)} C) :
    WindowClear s dt L (fun j => fin (m j)) (fun j => fin (c j)) (fin a) w ↔
      |windowMean m w s - a * windowMean c w s| < L.mean_diff ∧
      |M - a * C| < L.max_diff ∧
      L.lower_line_length < polyline dt m w s - polyline dt (fun j => a * c j) w s ∧
      polyline dt m w s - polyline dt (fun j => a * c j) w s < L.upper_line_length ∧
      (windowMean m w s ≠ 0 ∧ sampleStd (s - 1) (fun k => (m (w + k + 1) - m (w + k)) / dt) / windowMean m w s < L.var_diff) ∧
      (∀ k < s - 1, |(m (w + k + 1) - m (w + k)) - a * (c (w + k + 1) - c (w + k))| < L.slope_dev) ∧
      windowMean c w s ≠ 0 := by
  have hm : meanOf (window (fun j => fin (m j)) w s) = fin (windowMean m w s) := mean_fin m w s (by omega)
  have hc : meanOf (window (fun j => fin (c j)) w s) = fin (windowMean c w s) := mean_fin c w s (by omega)
  have hM' : maxOf (window (fun j => fin (m j)) w s) = fin M := by
    obtain ⟨r, h1, h2⟩ := max_real (m := s) (by omega) fun k => m (w + k)
    rw [h2.unique hM] at h1
    exact h1
  have hC' : maxOf (window (fun j => fin (c j)) w s) = fin C := by
    obtain ⟨r, h1, h2⟩ := max_real (m := s) (by omega) fun k => c (w + k)
    rw [h2.unique hC] at h1
    exact h1
  have hl1 := line_real dt m w s
  have hl2 := line_real dt (fun j => a * c j) w s
  have hst : stdOf ((List.range (s - 1)).map fun (k : ℕ) => (fin (m (w + k + 1)) - fin (m (w + k))) / fin dt) =
      fin (sampleStd (s - 1) fun k => (m (w + k + 1) - m (w + k)) / dt) := by
    rw [← std_real (by omega)]
    simp [hdt.ne']
  have hsl : stdOf ((List.range (s - 1)).map fun (k : ℕ) => (fin (m (w + k + 1)) - fin (m (w + k))) / fin dt) / fin (windowMean m w s)
      < fin L.var_diff ↔ windowMean m w s ≠ 0 ∧
        sampleStd (s - 1) (fun k => (m (w + k + 1) - m (w + k)) / dt) / windowMean m w s < L.var_diff := by
    rw [hst]
    by_cases h0 : windowMean m w s = 0
    · rw [h0, fin_div_zero]
      have : 0 ≤ sampleStd (s - 1) fun k => (m (w + k + 1) - m (w + k)) / dt := Real.sqrt_nonneg _
      rcases this.lt_or_eq with h | h
      · simp [infSign, h.not_gt, h.ne', h]
      · simp [infSign, ← h]
    · rw [fin_div h0, fin_lt]; simp [h0]
  have hch : maxOf ((List.range (s - 1)).map fun (k : ℕ) =>
      Fl.abs (fin (m (w + k + 1)) - fin a * fin (c (w + k + 1)) - (fin (m (w + k)) - fin a * fin (c (w + k))))) < fin L.slope_dev ↔
      ∀ k < s - 1, |(m (w + k + 1) - m (w + k)) - a * (c (w + k + 1) - c (w + k))| < L.slope_dev := by
    obtain ⟨r, h1, h2⟩ := max_real (m := s - 1) (by omega) fun k =>
      |(m (w + k + 1) - m (w + k)) - a * (c (w + k + 1) - c (w + k))|
    have e : (fun (k : ℕ) => Fl.abs (fin (m (w + k + 1)) - fin a * fin (c (w + k + 1)) - (fin (m (w + k)) - fin a * fin (c (w + k)))))
        = fun (k : ℕ) => fin (|(m (w + k + 1) - m (w + k)) - a * (c (w + k + 1) - c (w + k))|) := by
      funext k
      simp only [fin_mul, fin_sub, abs_fin]
      congr 2; ring
    rw [e, h1, fin_lt]
    constructor
    · intro h k hk
      exact lt_of_le_of_lt (h2.2 ⟨k, hk, rfl⟩) h
    · intro h
      obtain ⟨k, hk, rfl⟩ := h2.1
      exact h k hk
  constructor
  · rintro ⟨h1, h2, h3, h4, h5, h6, h7⟩
    rw [hm, hc, fin_mul, fin_sub, abs_fin, fin_lt] at h1
    rw [hM', hC', fin_mul, fin_sub, abs_fin, fin_lt] at h2
    simp only [fin_mul] at h3 h4
    rw [hl1, hl2, fin_sub, fin_lt] at h3 h4
    rw [hm] at h5
    rw [hc] at h7
    exact ⟨h1, h2, h3, h4, hsl.mp h5, hch.mp h6, by simpa using h7⟩
  · rintro ⟨h1, h2, h3, h4, h5, h6, h7⟩
    refine ⟨?_, ?_, ?_, ?_, ?_, ?_, ?_⟩
    · rw [hm, hc, fin_mul, fin_sub, abs_fin, fin_lt]; exact h1
    · rw [hM', hC', fin_mul, fin_sub, abs_fin, fin_lt]; exact h2
    · simp only [fin_mul]; rw [hl1, hl2, fin_sub, fin_lt]; exact h3
    · simp only [fin_mul]; rw [hl1, hl2, fin_sub, fin_lt]; exact h4
    · rw [hm]; exact hsl.mpr h5
    · exact hch.mpr h6
    · rw [hc]; simpa using h7

example := window_real (s := 3) le_rfl (dt := 5) (by norm_num) {} (fun j => 500 + j) (fun j => 510 + j) 1 4 (M := 506) (C := 516)
  ⟨⟨2, by norm_num, by norm_num⟩, by rintro _ ⟨k, hk, rfl⟩; have : (k : ℝ) ≤ 2 := (by exact_mod_cast (by omega : k ≤ 2)); push_cast; linarith⟩
  ⟨⟨2, by norm_num, by norm_num⟩, by rintro _ ⟨k, hk, rfl⟩; have : (k : ℝ) ≤ 2 := (by exact_mod_cast (by omega : k ≤ 2)); push_cast; linarith⟩

end Pvlib.Props.ClearskyDetect
end
