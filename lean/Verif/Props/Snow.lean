import Verif.Model.SnowSoiling
import Verif.Props.Spec

/-! # Properties C07-C10: snow coverage and snow loss -/

noncomputable section
open scoped Classical
open Real
namespace Pvlib.Props.Snow
open Fl Pvlib.Tools Pvlib.Snow Series Pvlib.Spec

/-! ## Specification -/

/-- "New snow fell in interval `i`": the snowfall rate (cm per hour over the interval that ends at
`i`) exceeds the threshold, and (when depths are given) the snow on the ground reaches the depth
threshold.  For the first interval, whose length is unknown, the rate uses the index frequency when
there is one and is 0 otherwise. -/
def NewSnow (t : ℕ → ℝ) (freq : Option ℝ) (snowfall : Series) (depth : Option Series)
    (thr thrDepth : Fl) (i : ℕ) : Prop :=
  (match i, freq with
    | 0, none => thr < fin 0
    | 0, some h => thr < snowfall 0 / fin h
    | i + 1, _ => thr < snowfall (i + 1) / fin (t (i + 1) - t i)) ∧
  (match depth with
    | none => True
    | some d => thrDepth ≤ d i)

/-- The amount (fraction of the row height) that slides off in interval `i`, or `none` if it is not
known because the tilt is not known. -/
def slides (t : ℕ → ℝ) (snow : ℕ → Prop) (poa temp tilt : Series) (depth : Option Series)
    (thrDepth mcoef : Fl) (k : ℝ) (i : ℕ) : Option ℝ :=
  if (match depth with | none => False | some d => d i < thrDepth) then some 1
  else if i = 0 ∨ snow i ∨ ¬ (poa i / mcoef < temp i) then some 0
  else match tilt i with
    | fin b => some (k * sinDeg b * (t i - t (i - 1)))
    | _ => none

/-- The recurrence: full cover on new snow, otherwise the previous cover minus what slides off, not
below 0 (an unknown amount counts as nothing). -/
def cover (snow : ℕ → Prop) (slide : ℕ → Option ℝ) (c0 : ℝ) : ℕ → ℝ
  | 0 => if snow 0 then 1 else max 0 (c0 - (slide 0).getD 0)
  | i + 1 => if snow (i + 1) then 1 else max 0 (cover snow slide c0 i - (slide (i + 1)).getD 0)

/-! ## Proofs -/

theorem fullyCovered_iff (t : ℕ → ℝ) (freq : Option ℝ) (snowfall : Series) (depth : Option Series)
    (thr thrDepth : Fl) (i : ℕ) :
    fullyCoveredNrel t freq snowfall depth thr thrDepth i
      ↔ NewSnow t freq snowfall depth thr thrDepth i := by
  cases i <;> cases freq <;> cases depth <;>
    simp [fullyCoveredNrel, NewSnow, setFirst, timeDiff]

private theorem boolCumsum_mono (b : ℕ → Prop) {i j : ℕ} (h : j ≤ i) :
    boolCumsum b j ≤ boolCumsum b i := by
  induction i with
  | zero => obtain rfl : j = 0 := by omega
            exact le_rfl
  | succ i ih =>
    rcases Nat.lt_or_ge j (i + 1) with h' | h'
    · exact le_trans (ih (by omega)) (by simp [boolCumsum])
    · obtain rfl : j = i + 1 := by omega
      exact le_rfl

/-- Real value of a slide amount: 0 when NaN. -/
private def rv : Fl → ℝ
  | fin r => r
  | _ => 0

private def gsum (snow : ℕ → Prop) (x : Series) : ℕ → ℝ
  | 0 => rv (x 0)
  | i + 1 => if snow (i + 1) then rv (x (i + 1)) else gsum snow x i + rv (x (i + 1))

private def start (snow : ℕ → Prop) (c0 : ℝ) : ℕ → ℝ
  | 0 => if snow 0 then 1 else c0
  | i + 1 => if snow (i + 1) then 1 else start snow c0 i

private theorem fold_gsum (snow : ℕ → Prop) (x : Series) (hx : ∀ i, x i = nan ∨ ∃ r, x i = fin r)
    (i : ℕ) :
    ((List.range (i + 1)).filter
      (fun j => boolCumsum snow j = boolCumsum snow i ∧ x j ≠ nan)).foldl (fun a j => a + x j) 0
      = fin (gsum snow x i) := by
  induction i with
  | zero =>
    rcases hx 0 with h | ⟨r, h⟩ <;> simp [gsum, h, rv]
  | succ i ih =>
    rw [List.range_succ, List.filter_append, List.foldl_append]
    by_cases hs : snow (i + 1)
    · have : ((List.range (i + 1)).filter
        (fun j => boolCumsum snow j = boolCumsum snow (i + 1) ∧ x j ≠ nan)) = [] := by
        rw [List.filter_eq_nil_iff]
        intro j hj
        have hj' : j ≤ i := by simpa [Nat.lt_succ_iff] using hj
        have := boolCumsum_mono snow hj'
        have h2 : boolCumsum snow (i + 1) = boolCumsum snow i + 1 := by simp [boolCumsum, hs]
        simp only [decide_eq_true_eq, not_and]
        intro h; omega
      rw [this]
      rcases hx (i + 1) with h | ⟨r, h⟩ <;> simp [gsum, h, rv, hs]
    · have h2 : boolCumsum snow (i + 1) = boolCumsum snow i := by simp [boolCumsum, hs]
      rw [h2, ih]
      rcases hx (i + 1) with h | ⟨r, h⟩ <;> simp [gsum, h, rv, hs, h2]

private theorem ffill_start (snow : ℕ → Prop) (c0 : ℝ) (i : ℕ) :
    ffill (if isnan (setMask (fun _ => nan) snow (fun _ => 1) 0)
      then setFirst (setMask (fun _ => nan) snow (fun _ => 1)) (fin c0)
      else setMask (fun _ => nan) snow (fun _ => 1)) i = fin (start snow c0 i) := by
  induction i with
  | zero => by_cases h : snow 0 <;> simp [ffill, setMask, setFirst, h, start]
  | succ i ih =>
    by_cases h0 : snow 0 <;> by_cases h : snow (i + 1) <;>
      simp only [ffill, ih, start] <;> simp [setMask, setFirst, h, h0]

private theorem start_sub_gsum (snow : ℕ → Prop) (x : Series) (slide : ℕ → Option ℝ) (c0 : ℝ)
    (hsl : ∀ i, (slide i).getD 0 = rv (x i)) (h0 : ∀ i, 0 ≤ rv (x i))
    (hs : ∀ i, snow i → rv (x i) = 0) (i : ℕ) :
    max (start snow c0 i - gsum snow x i) 0 = cover snow slide c0 i := by
  induction i with
  | zero => by_cases h : snow 0 <;> simp [start, gsum, cover, h, hsl, hs, max_comm]
  | succ i ih =>
    by_cases h : snow (i + 1)
    · simp [start, gsum, cover, h, hs]
    · simp only [start, gsum, cover, h, if_false, ← ih, hsl]
      have := h0 (i + 1)
      rcases le_total (start snow c0 i - gsum snow x i) 0 with h1 | h1
      · rw [max_eq_right h1, max_eq_right (by linarith), max_eq_left (by linarith)]
      · rw [max_eq_left h1, max_comm]; congr 1; ring

private theorem slideAmt_eq (t : ℕ → ℝ) (snow : ℕ → Prop) (poa temp tilt : Series)
    (depth : Option Series) (thrDepth mcoef : Fl) (k : ℝ) (i : ℕ) 
    (htilt : ∀ j, NanOr (tilt j) (fun b => 0 ≤ b ∧ b ≤ 180)) :
    slideAmt t snow poa temp tilt depth thrDepth mcoef (fin k) i
      = match slides t snow poa temp tilt depth thrDepth mcoef k i with
        | some r => fin r
        | none => nan := by
  have key : setFirst (setMask (setMask (fun i => fin k * sind (tilt i) * timeDiff t i)
      (fun i => ¬ poa i / mcoef < temp i) (fun _ => 0)) snow (fun _ => 0)) 0 i
      = match slides t snow poa temp tilt none thrDepth mcoef k i with
        | some r => fin r
        | none => nan := by
    cases i with
    | zero => simp [setFirst, slides]
    | succ i =>
      by_cases hs : snow (i + 1)
      · simp [setFirst, slides, setMask, hs]
      · by_cases hc : poa (i + 1) / mcoef < temp (i + 1)
        · rcases htilt (i + 1) with hb | ⟨b, hb, -⟩ <;>
            simp [setFirst, slides, setMask, hs, hc, hb, timeDiff, sinDeg, rad]
        · simp [setFirst, slides, setMask, hs, hc]
  cases depth with
  | none => simpa [slideAmt] using key
  | some d =>
    by_cases hd : d i < thrDepth
    · simp [slideAmt, setMask, slides, hd]
    · have : slides t snow poa temp tilt (some d) thrDepth mcoef k i
        = slides t snow poa temp tilt none thrDepth mcoef k i := by simp [slides, hd]
      rw [this, ← key]
      simp [slideAmt, setMask, hd]

private theorem sin_nonneg_tilt {b : ℝ} (h : 0 ≤ b) (h' : b ≤ 180) : 0 ≤ sinDeg b := by
  have := Real.pi_pos
  apply Real.sin_nonneg_of_nonneg_of_le_pi
  · positivity
  · nlinarith

/-- **C07**.  `coverage_nrel` is the recurrence `cover`: at every step, NaN if the amount that slides
in that very step is unknown (NaN tilt while snow can slide), and otherwise the recurrence's value.
Irradiance, temperature, snowfall, depth and thresholds are arbitrary (NaN and infinities included). -/
theorem coverage_recurrence (t : ℕ → ℝ) (ht : Monotone t) (freq : Option ℝ)
    (snowfall poa temp tilt : Series) (depth : Option Series) (c0 k : ℝ) (hk : 0 ≤ k)
    (thr thrDepth mcoef : Fl) (htilt : ∀ j, NanOr (tilt j) (fun b => 0 ≤ b ∧ b ≤ 180)) (i : ℕ) :
    let snow := NewSnow t freq snowfall depth thr thrDepth
    let slide := slides t snow poa temp tilt depth thrDepth mcoef k
    coverageNrel t freq snowfall poa temp tilt depth (fin c0) thr thrDepth mcoef (fin k) i
      = if slide i = none then nan else fin (cover snow slide c0 i) := by
  intro snow slide
  have hsnow : fullyCoveredNrel t freq snowfall depth thr thrDepth = snow :=
    funext fun j => propext (fullyCovered_iff ..)
  set x := slideAmt t snow poa temp tilt depth thrDepth mcoef (fin k) with hxdef
  have hxe : ∀ j, x j = match slide j with | some r => fin r | none => nan :=
    fun j => slideAmt_eq t snow poa temp tilt depth thrDepth mcoef k j htilt
  have hx : ∀ j, x j = nan ∨ ∃ r, x j = fin r := by
    intro j; rw [hxe]; cases slide j <;> simp
  have hsl : ∀ j, (slide j).getD 0 = rv (x j) := by
    intro j; rw [hxe]; cases slide j <;> simp [rv]
  have hsnow0 : ∀ j, snow j → slide j = some 0 := by
    intro j hj
    simp only [slide, slides, hj, true_or, or_true, if_true]
    rw [if_neg]
    cases depth with
    | none => simp
    | some d =>
      have : thrDepth ≤ d j := hj.2
      simp only
      revert this
      cases thrDepth <;> cases d j <;> simp
  have h0 : ∀ j, 0 ≤ rv (x j) := by
    intro j
    rw [← hsl]
    simp only [slide, slides]
    split_ifs
    · simp
    · simp
    · rcases htilt j with hb | ⟨b, hb, h1, h2⟩
      · simp [hb]
      · simp only [hb, Option.getD_some]
        exact mul_nonneg (mul_nonneg hk (sin_nonneg_tilt h1 h2))
          (sub_nonneg.mpr (ht (Nat.sub_le _ _)))
  have hs : ∀ j, snow j → rv (x j) = 0 := by
    intro j hj; rw [← hsl, hsnow0 j hj]; rfl
  simp only [coverageNrel, hsnow, clipLower, ← hxdef]
  rw [ffill_start, groupCumsum]
  have hnan : x i = nan ↔ slide i = none := by
    rw [hxe]; cases slide i <;> simp
  by_cases hn : slide i = none
  · rw [if_pos (hnan.mpr hn), if_pos hn]; simp
  · rw [if_neg (mt hnan.mp hn), if_neg hn, fold_gsum snow x hx i]
    simp [start_sub_gsum snow x slide c0 hsl h0 hs i]

/-- The hypotheses of `coverage_recurrence` are met by an hourly index and a 30 degree array. -/
example : Monotone (fun i : ℕ => (i : ℝ)) ∧
    ∀ j : ℕ, NanOr ((fun _ => fin 30 : Series) j) (fun b => 0 ≤ b ∧ b ≤ 180) :=
  ⟨Nat.mono_cast, fun _ => by norm_num⟩

theorem cover_range (snow : ℕ → Prop) (slide : ℕ → Option ℝ) (c0 : ℝ) (hc : c0 ≤ 1)
    (hsl : ∀ i, 0 ≤ (slide i).getD 0) (i : ℕ) :
    0 ≤ cover snow slide c0 i ∧ cover snow slide c0 i ≤ 1 := by
  induction i with
  | zero =>
    by_cases h : snow 0
    · simp [cover, h]
    · simp only [cover, h, if_false]
      exact ⟨le_max_left _ _, max_le (by norm_num) (by linarith [hsl 0])⟩
  | succ i ih =>
    by_cases h : snow (i + 1)
    · simp [cover, h]
    · simp only [cover, h, if_false]
      exact ⟨le_max_left _ _, max_le (by norm_num) (by linarith [hsl (i + 1), ih.2])⟩

theorem slides_nonneg (t : ℕ → ℝ) (ht : Monotone t) (snow : ℕ → Prop) (poa temp tilt : Series)
    (depth : Option Series) (thrDepth mcoef : Fl) (k : ℝ) (hk : 0 ≤ k)
    (htilt : ∀ j, NanOr (tilt j) (fun b => 0 ≤ b ∧ b ≤ 180)) (j : ℕ) :
    0 ≤ (slides t snow poa temp tilt depth thrDepth mcoef k j).getD 0 := by
  simp only [slides]
  split_ifs
  · simp
  · simp
  · rcases htilt j with hb | ⟨b, hb, h1, h2⟩
    · simp [hb]
    · simp only [hb, Option.getD_some]
      exact mul_nonneg (mul_nonneg hk (sin_nonneg_tilt h1 h2))
        (sub_nonneg.mpr (ht (Nat.sub_le _ _)))

/-- **C08**, range: every coverage is NaN or between 0 and 1 when the initial coverage is at most 1. -/
theorem coverage_range (t : ℕ → ℝ) (ht : Monotone t) (freq : Option ℝ)
    (snowfall poa temp tilt : Series) (depth : Option Series) (c0 k : ℝ) (hc : c0 ≤ 1) (hk : 0 ≤ k)
    (thr thrDepth mcoef : Fl) (htilt : ∀ j, NanOr (tilt j) (fun b => 0 ≤ b ∧ b ≤ 180)) (i : ℕ) :
    NanOr (coverageNrel t freq snowfall poa temp tilt depth (fin c0) thr thrDepth mcoef (fin k) i)
      (fun c => 0 ≤ c ∧ c ≤ 1) := by
  have h := coverage_recurrence t ht freq snowfall poa temp tilt depth c0 k hk thr thrDepth mcoef htilt i
  simp only at h
  rw [h]
  split_ifs
  · simp
  · exact (nanOr_fin _ _).mpr (cover_range _ _ _ hc
      (slides_nonneg t ht _ poa temp tilt depth thrDepth mcoef k hk htilt) i)

example := coverage_range (fun i => (i : ℝ)) Nat.mono_cast (some 1) (fun _ => fin 2) (fun _ => fin 800) (fun _ => fin 5)
  (fun _ => fin 30) none 0 0.197 (by norm_num) (by norm_num) (fin 1) (fin 1) (fin (-80)) (fun _ => by norm_num) 4

/-- With a known tilt nothing is NaN. -/
theorem coverage_range' (t : ℕ → ℝ) (ht : Monotone t) (freq : Option ℝ)
    (snowfall poa temp : Series) (tilt : ℕ → ℝ) (depth : Option Series) (c0 k : ℝ) (hc : c0 ≤ 1)
    (hk : 0 ≤ k) (thr thrDepth mcoef : Fl) (htilt : ∀ j, 0 ≤ tilt j ∧ tilt j ≤ 180) (i : ℕ) :
    ∃ c, coverageNrel t freq snowfall poa temp (fun j => fin (tilt j)) depth (fin c0) thr thrDepth
      mcoef (fin k) i = fin c ∧ 0 ≤ c ∧ c ≤ 1 := by
  have ht' : ∀ j, NanOr (fin (tilt j)) (fun b => 0 ≤ b ∧ b ≤ 180) := fun j => by simpa using htilt j
  have h := coverage_recurrence t ht freq snowfall poa temp _ depth c0 k hk thr thrDepth mcoef ht' i
  simp only at h
  rw [h, if_neg]
  · exact ⟨_, rfl, cover_range _ _ _ hc
      (slides_nonneg t ht _ poa temp _ depth thrDepth mcoef k hk ht') i⟩
  · simp only [slides]; split_ifs <;> simp

/-- **C08**, reset: the coverage is exactly 1 on every new-snowfall step (any tilt, even NaN). -/
theorem coverage_new_snow (t : ℕ → ℝ) (ht : Monotone t) (freq : Option ℝ)
    (snowfall poa temp tilt : Series) (depth : Option Series) (c0 k : ℝ) (hk : 0 ≤ k)
    (thr thrDepth mcoef : Fl) (htilt : ∀ j, NanOr (tilt j) (fun b => 0 ≤ b ∧ b ≤ 180)) (i : ℕ)
    (hs : NewSnow t freq snowfall depth thr thrDepth i) :
    coverageNrel t freq snowfall poa temp tilt depth (fin c0) thr thrDepth mcoef (fin k) i = fin 1 := by
  have h := coverage_recurrence t ht freq snowfall poa temp tilt depth c0 k hk thr thrDepth mcoef htilt i
  simp only at h
  rw [h, if_neg]
  · cases i <;> simp [cover, hs]
  · simp only [slides]
    split_ifs <;> simp_all

example := coverage_new_snow (fun i => (i : ℝ)) Nat.mono_cast (some 1) (fun _ => fin 2) (fun _ => fin 800) (fun _ => fin 5)
  (fun _ => fin 30) none 0 0.197 (by norm_num) (fin 1) (fin 1) (fin (-80)) (fun _ => by norm_num) 4
  (by norm_num [NewSnow])

/-- **C08**, monotone: without new snow at step `i + 1` the coverage does not increase. -/
theorem coverage_decreases (t : ℕ → ℝ) (ht : Monotone t) (freq : Option ℝ)
    (snowfall poa temp tilt : Series) (depth : Option Series) (c0 k : ℝ) (hk : 0 ≤ k)
    (thr thrDepth mcoef : Fl) (htilt : ∀ j, NanOr (tilt j) (fun b => 0 ≤ b ∧ b ≤ 180)) (i : ℕ)
    (hs : ¬ NewSnow t freq snowfall depth thr thrDepth (i + 1)) (a b : ℝ)
    (ha : coverageNrel t freq snowfall poa temp tilt depth (fin c0) thr thrDepth mcoef (fin k) i = fin a)
    (hb : coverageNrel t freq snowfall poa temp tilt depth (fin c0) thr thrDepth mcoef (fin k) (i + 1)
      = fin b) : b ≤ a := by
  have h1 := coverage_recurrence t ht freq snowfall poa temp tilt depth c0 k hk thr thrDepth mcoef htilt i
  have h2 := coverage_recurrence t ht freq snowfall poa temp tilt depth c0 k hk thr thrDepth mcoef htilt
    (i + 1)
  simp only at h1 h2
  rw [h1] at ha
  rw [h2] at hb
  split_ifs at ha with ha'
  split_ifs at hb with hb'
  simp only [fin_inj] at ha hb
  rw [← ha, ← hb]
  simp only [cover, hs, if_false]
  apply max_le
  · cases i with
    | zero => simp only [cover]; split_ifs <;> simp
    | succ i => simp only [cover]; split_ifs <;> simp
  · linarith [slides_nonneg t ht (NewSnow t freq snowfall depth thr thrDepth) poa temp tilt depth
      thrDepth mcoef k hk htilt (i + 1)]

example : ∃ a b, coverageNrel (fun i => (i : ℝ)) (some 1) (fun _ => fin 0) (fun _ => fin 800) (fun _ => fin 5)
    (fun _ => fin 30) none (fin 0.5) (fin 1) (fin 1) (fin (-80)) (fin 0.197) 3 = fin a ∧
    coverageNrel (fun i => (i : ℝ)) (some 1) (fun _ => fin 0) (fun _ => fin 800) (fun _ => fin 5)
    (fun _ => fin 30) none (fin 0.5) (fin 1) (fin 1) (fin (-80)) (fin 0.197) 4 = fin b ∧ b ≤ a := by
  have h : ∀ i, ∃ c, coverageNrel (fun i => (i : ℝ)) (some 1) (fun _ => fin 0) (fun _ => fin 800) (fun _ => fin 5)
      (fun _ => fin 30) none (fin 0.5) (fin 1) (fin 1) (fin (-80)) (fin 0.197) i = fin c := by
    intro i
    have h := coverage_recurrence (fun i => (i : ℝ)) Nat.mono_cast (some 1) (fun _ => fin 0) (fun _ => fin 800)
      (fun _ => fin 5) (fun _ => fin 30) none 0.5 0.197 (by norm_num) (fin 1) (fin 1) (fin (-80)) (fun _ => by norm_num) i
    dsimp only at h
    rw [if_neg (by simp only [slides]; split_ifs <;> simp)] at h
    exact ⟨_, h⟩
  obtain ⟨a, ha⟩ := h 3
  obtain ⟨b, hb⟩ := h 4
  exact ⟨_, _, ha, hb, coverage_decreases (fun i => (i : ℝ)) Nat.mono_cast (some 1) (fun _ => fin 0) (fun _ => fin 800)
    (fun _ => fin 5) (fun _ => fin 30) none 0.5 0.197 (by norm_num) (fin 1) (fin 1) (fin (-80)) (fun _ => by norm_num) 3
    (by norm_num [NewSnow]) _ _ ha hb⟩

/-- **C08**: when the ground is bare (depth below the threshold) all the snow is gone. -/
theorem coverage_bare_ground (t : ℕ → ℝ) (ht : Monotone t) (freq : Option ℝ)
    (snowfall poa temp tilt d : Series) (c0 k : ℝ) (hc : c0 ≤ 1) (hk : 0 ≤ k)
    (thr thrDepth mcoef : Fl) (htilt : ∀ j, NanOr (tilt j) (fun b => 0 ≤ b ∧ b ≤ 180)) (i : ℕ)
    (hd : d i < thrDepth) :
    coverageNrel t freq snowfall poa temp tilt (some d) (fin c0) thr thrDepth mcoef (fin k) i
      = fin 0 := by
  have h := coverage_recurrence t ht freq snowfall poa temp tilt (some d) c0 k hk thr thrDepth mcoef
    htilt i
  simp only at h
  have hns : ¬ NewSnow t freq snowfall (some d) thr thrDepth i := by
    intro hs
    have : thrDepth ≤ d i := hs.2
    revert this hd
    cases thrDepth <;> cases d i <;> simp
  have hsl : slides t (NewSnow t freq snowfall (some d) thr thrDepth) poa temp tilt (some d)
      thrDepth mcoef k i = some 1 := by simp [slides, hd]
  rw [h, hsl]
  simp only [reduceCtorEq, if_false]
  congr 1
  cases i with
  | zero => simp [cover, hns, hsl, hc]
  | succ i =>
    have := cover_range (NewSnow t freq snowfall (some d) thr thrDepth) _ _ hc (slides_nonneg t ht
      (NewSnow t freq snowfall (some d) thr thrDepth) poa temp tilt (some d) thrDepth mcoef k hk htilt) i
    simp [cover, hns, hsl, this.2]

/-- Non-vacuity of C08: an hourly series with 5 cm of snow in hour 1 and a warm sunny hour 2: the
array is bare, fully covered, then partly covered. -/
example : let snowfall : Series := fun i => if i = 1 then fin 5 else fin 0
    coverageNrel (fun i => (i : ℝ)) (some 1) snowfall (fun _ => fin 800) (fun _ => fin 5)
      (fun _ => fin 30) none (fin 0) (fin 1) (fin 1) (fin (-80)) (fin 0.197) 2 = fin (1 - 0.197 / 2) := by
  intro snowfall
  have h := coverage_recurrence (fun i => (i : ℝ)) Nat.mono_cast (some 1) snowfall (fun _ => fin 800)
    (fun _ => fin 5) (fun _ => fin 30) none 0 0.197 (by norm_num) (fin 1) (fin 1) (fin (-80))
    (fun _ => by norm_num) 2
  simp only at h
  rw [h]
  have hs : sinDeg 30 = 1 / 2 := by
    simp only [sinDeg, rad]
    rw [show (30 : ℝ) * (π / 180) = π / 6 by ring]; exact Real.sin_pi_div_six
  have h5 : (800:ℝ) / -80 < 5 := by norm_num
  norm_num [NewSnow, slides, cover, snowfall, hs, h5]
  simp

/-! ## C09 dc_loss_nrel -/

/-- **C09**. `dc_loss_nrel` rounds the covered fraction up to a whole number of strings. -/
theorem dcLoss_spec (c : ℝ) (hc0 : 0 ≤ c) (hc1 : c ≤ 1) (n : ℕ) (hn : 0 < n) :
    ∃ k : ℕ, dcLossNrel (fin c) (fin n) = fin ((k : ℝ) / n) ∧ k ≤ n ∧ c ≤ (k : ℝ) / n ∧
      (k : ℝ) / n < c + 1 / n ∧ (k = 0 ↔ c = 0) := by
  have hn' : (0 : ℝ) < n := by exact_mod_cast hn
  have h0 : 0 ≤ c * n := by positivity
  refine ⟨⌈c * n⌉₊, ?_, ?_, ?_, ?_, ?_⟩
  · simp only [dcLossNrel, fin_mul, ceil_fin, fin_div hn'.ne']
    congr 2
    exact (natCast_ceil_eq_intCast_ceil h0).symm
  · rw [Nat.ceil_le]; nlinarith
  · rw [le_div_iff₀ hn']; exact Nat.le_ceil _
  · rw [div_lt_iff₀ hn', add_mul, one_div, inv_mul_cancel₀ hn'.ne']
    exact Nat.ceil_lt_add_one h0
  · rw [Nat.ceil_eq_zero]
    constructor
    · intro h; nlinarith
    · rintro rfl; simp

example := dcLoss_spec 0.3 (by norm_num) (by norm_num) 8 (by norm_num)

/-- `dc_loss_nrel` is monotone in the coverage. -/
theorem dcLoss_mono (c c' : ℝ) (h : c ≤ c') (n : ℕ) (hn : 0 < n) :
    dcLossNrel (fin c) (fin n) ≤ dcLossNrel (fin c') (fin n) := by
  have hn' : (0 : ℝ) < n := by exact_mod_cast hn
  simp only [dcLossNrel, fin_mul, ceil_fin, fin_div hn'.ne', fin_le]
  apply div_le_div_of_nonneg_right _ hn'.le
  exact_mod_cast Int.ceil_le_ceil (mul_le_mul_of_nonneg_right h hn'.le)

example : dcLossNrel (fin 0.3) (fin 8) = fin (3 / 8) := by
  simp only [dcLossNrel, fin_mul, ceil_fin]
  rw [fin_div (by norm_num)]
  have : ⌈(0.3 : ℝ) * 8⌉ = 3 := by rw [Int.ceil_eq_iff]; norm_num
  rw [this]; norm_num

/-! ## C10 Townsend -/

/-- **C10**, range: the loss is NaN or a fraction, whatever the inputs. -/
theorem townsend_range (n : ℕ) (snow_total snow_events surface_tilt rh temp poa slant low : Series)
    (sf ar fs : Fl) (i : ℕ) :
    NanOr (lossTownsend n snow_total snow_events surface_tilt rh temp poa slant low sf ar fs i)
      (fun l => 0 ≤ l ∧ l ≤ 1) := by
  rw [lossTownsend]
  exact clip_range _ (by norm_num)

private theorem effective_zero (s e : Fl) (h : ¬ (fin 0 < e)) : townsendEffectiveSnow s e = fin 0 := by
  simp [townsendEffectiveSnow, npwhere_neg, h]

/-- **C10**, no snow: with no snow events this month and the month before (the array is cyclic:
before the first month comes the last), the loss is exactly 0, for any snow total. -/
theorem townsend_no_snow (n : ℕ) (snow_total snow_events : Series) (surface_tilt rh temp poa slant low : ℕ → ℝ)
    (sf ar fs : ℝ) (i : ℕ) (hi : i < n)
    (h1 : ¬ (fin 0 < snow_events i))
    (h2 : ¬ (fin 0 < snow_events (if i = 0 then n - 1 else i - 1)))
    (hT : temp i ≠ -273.15) (hpoa : 0 < poa i) (har : Real.cos (ar * (π / 180)) ≠ 0) :
    lossTownsend n snow_total snow_events (fun j => fin (surface_tilt j)) (fun j => fin (rh j))
      (fun j => fin (temp j)) (fun j => fin (poa j)) (fun j => fin (slant j)) (fun j => fin (low j))
      (fin sf) (fin ar) (fin fs) i = fin 0 := by
  have hprev : (i + n - 1) % n = if i = 0 then n - 1 else i - 1 := by
    split_ifs with h
    · subst h; rw [Nat.zero_add]; exact Nat.mod_eq_of_lt (by omega)
    · rw [show i + n - 1 = (i - 1) + n by omega, Nat.add_mod_right]
      exact Nat.mod_eq_of_lt (by omega)
  have e1 := effective_zero (snow_total i / fin 2.54) (snow_events i) h1
  have e2 := effective_zero (snow_total (if i = 0 then n - 1 else i - 1) / fin 2.54)
    (snow_events (if i = 0 then n - 1 else i - 1)) h2
  have hT' : (temp i + 273.15) ^ 2 ≠ 0 := by
    apply pow_ne_zero; intro h; apply hT; linarith
  have hp : (0 : ℝ) < poa i / 1000 := by positivity
  have hp' : (poa i / 1000) ^ (0.67 : ℝ) ≠ 0 := (Real.rpow_pos_of_pos hp _).ne'
  have hle : max ((low i * 39.37) ^ 2) (0.1 : ℝ) ≠ 0 := by
    have : (0 : ℝ) < max ((low i * 39.37) ^ 2) 0.1 := lt_of_lt_of_le (by norm_num) (le_max_right _ _)
    exact this.ne'
  simp only [lossTownsend, roll1, hprev, zero_eq, one_eq, ofNat_eq, ofScientific_eq] at *
  rw [e1, e2]
  simp only [fin_mul, fin_add, fin_pow, mul_zero, fin_sub, cosd_fin, tand_fin har,
    fin_div (show (3 : ℝ) ≠ 0 by norm_num), fin_div (show (100 : ℝ) ≠ 0 by norm_num),
    fin_div (show (1000 : ℝ) ≠ 0 by norm_num), add_zero, maximum_fin, zero_mul, ne_eq,
    OfNat.ofNat_ne_zero, not_false_eq_true, zero_pow, sub_zero, fin_div hle, fin_div hT',
    rpow_fin_pos hp, fin_div hp', neg_fin, exp_fin, clip_fin, zero_div]
  simp

/-- Non-vacuity of `townsend_no_snow`: a January-December year with snow in month 3 only; month 7. -/
example : let ev : Series := fun i => if i = 3 then fin 4 else fin 0
    ¬ (fin 0 < ev 7) ∧ ¬ (fin 0 < ev (if 7 = 0 then 12 - 1 else 7 - 1)) ∧ fin 0 < ev 3 := by
  simp

end Pvlib.Props.Snow
end
