import Mathlib.Tactic.IntervalCases
import Verif.Model.Clearsky
import Verif.Props.ToolsMisc

/-! # Property C105: the Linke turbidity look-up -/

noncomputable section
open scoped Classical
open Real
namespace Pvlib.Props.Linke
open Fl Pvlib.Clearsky Pvlib.Tools Pvlib.Props.ToolsMisc

/-! ### `np.interp` -/

/-- Abscissae strictly increasing. -/
def Increasing (l : List (ℝ × ℝ)) : Prop := l.Pairwise fun p q => p.1 < q.1

/-- The interpolated value never leaves the range of the ordinates. -/
theorem interp_range {lo hi : ℝ} : ∀ (l : List (ℝ × ℝ)), l ≠ [] → Increasing l → (∀ p ∈ l, lo ≤ p.2 ∧ p.2 ≤ hi) → ∀ x : ℝ,
    lo ≤ npInterp l x ∧ npInterp l x ≤ hi
  | [], h, _, _, _ => absurd rfl h
  | [p], _, _, hb, x => by simpa [npInterp] using hb p (by simp)
  | p :: q :: t, _, hs, hb, x => by
    have hs' : Increasing (q :: t) := (List.pairwise_cons.mp hs).2
    have hpq : p.1 < q.1 := (List.pairwise_cons.mp hs).1 q (by simp)
    obtain ⟨p1, p2⟩ := hb p (by simp)
    obtain ⟨q1, q2⟩ := hb q (by simp)
    unfold npInterp
    by_cases h1 : x ≤ p.1
    · simp only [h1, if_true]; exact ⟨p1, p2⟩
    · by_cases h2 : x < q.1
      · simp only [h1, h2, if_false, if_true]
        have hd : 0 < q.1 - p.1 := by linarith
        have h1' := not_le.mp h1
        set s := (x - p.1) / (q.1 - p.1) with hs
        have e : p.2 + (q.2 - p.2) / (q.1 - p.1) * (x - p.1) = (1 - s) * p.2 + s * q.2 := by rw [hs]; field_simp; ring
        have s0 : 0 ≤ s := div_nonneg (by linarith) hd.le
        have s1 : s ≤ 1 := (div_le_one hd).mpr (by linarith)
        rw [e]
        constructor <;> nlinarith
      · simp only [h1, h2, if_false]
        exact interp_range (q :: t) (by simp) hs' (fun r hr => hb r (by simp [hr])) x

/-- Between two consecutive points the interpolated value lies on the line through them (and at the points it is the ordinate). -/
theorem interp_segment : ∀ (l : List (ℝ × ℝ)), Increasing l → ∀ (i : ℕ) (h : i + 1 < l.length) (x : ℝ),
    l[i].1 ≤ x → x ≤ l[i + 1].1 →
    npInterp l x = l[i].2 + (l[i + 1].2 - l[i].2) * ((x - l[i].1) / (l[i + 1].1 - l[i].1))
  | [], _, i, h, _, _, _ => by simp at h
  | [p], _, i, h, _, _, _ => by simp at h
  | p :: q :: t, hs, 0, _, x, h1, h2 => by
    have hs' : Increasing (q :: t) := (List.pairwise_cons.mp hs).2
    have hpq : p.1 < q.1 := (List.pairwise_cons.mp hs).1 q (by simp)
    simp only [List.getElem_cons_zero, List.getElem_cons_succ, zero_add] at h1 h2 ⊢
    unfold npInterp
    by_cases h1' : x ≤ p.1
    · have : x = p.1 := le_antisymm h1' h1
      simp [this]
    · by_cases h2' : x < q.1
      · simp only [h1', h2', if_false, if_true]; ring
      · have hx : x = q.1 := le_antisymm h2 (not_lt.mp h2')
        have hd : q.1 - p.1 ≠ 0 := by linarith
        simp only [h1', h2', if_false]
        rw [hx, div_self hd]
        cases t with
        | nil => simp [npInterp]
        | cons r t => unfold npInterp; simp
  | p :: q :: t, hs, i + 1, h, x, h1, h2 => by
    have hs' : Increasing (q :: t) := (List.pairwise_cons.mp hs).2
    have hpq : p.1 < q.1 := (List.pairwise_cons.mp hs).1 q (by simp)
    have hi : i + 1 < (q :: t).length := by simpa using h
    simp only [List.getElem_cons_succ] at h1 h2
    have hq : q.1 ≤ (q :: t)[i].1 := by
      cases i with
      | zero => simp
      | succ i =>
        simp only [List.getElem_cons_succ]
        exact ((List.pairwise_cons.mp hs').1 _ (List.getElem_mem _)).le
    have hx : q.1 ≤ x := hq.trans h1
    have e : npInterp (p :: q :: t) x = npInterp (q :: t) x := by
      conv_lhs => unfold npInterp
      simp [not_le.mpr (hpq.trans_le hx), not_lt.mpr hx]
    rw [e, interp_segment (q :: t) hs' i hi x h1 h2]
    simp

private theorem bounded_above : ∀ l : List (ℝ × ℝ), ∃ hi : ℝ, ∀ p ∈ l, p.2 ≤ hi
  | [] => ⟨0, by simp⟩
  | p :: t => by
    obtain ⟨hi, h⟩ := bounded_above t
    refine ⟨max p.2 hi, fun q hq => ?_⟩
    rcases List.mem_cons.mp hq with rfl | hq
    · exact le_max_left _ _
    · exact (h q hq).trans (le_max_right _ _)

/-- Interpolation between non-decreasing ordinates is non-decreasing. -/
theorem interp_mono : ∀ (l : List (ℝ × ℝ)), Increasing l → l.Pairwise (fun p q => p.2 ≤ q.2) → ∀ {x y : ℝ}, x ≤ y →
    npInterp l x ≤ npInterp l y
  | [], _, _, _, _, _ => by simp [npInterp]
  | [p], _, _, _, _, _ => by simp [npInterp]
  | p :: q :: t, hs, hm, x, y, hxy => by
    have hs' : Increasing (q :: t) := (List.pairwise_cons.mp hs).2
    have hpq : p.1 < q.1 := (List.pairwise_cons.mp hs).1 q (by simp)
    have hm' := (List.pairwise_cons.mp hm).2
    have hpq2 : p.2 ≤ q.2 := (List.pairwise_cons.mp hm).1 q (by simp)
    obtain ⟨hi, hb⟩ := bounded_above (p :: q :: t)
    have low : ∀ z, p.2 ≤ npInterp (p :: q :: t) z := fun z =>
      (interp_range (lo := p.2) (hi := hi) (p :: q :: t) (by simp) hs (fun r hr => ⟨by
        rcases List.mem_cons.mp hr with rfl | hr
        · exact le_rfl
        · exact (List.pairwise_cons.mp hm).1 r hr, hb r hr⟩) z).1
    have low' : ∀ z, q.2 ≤ npInterp (q :: t) z := fun z =>
      (interp_range (lo := q.2) (hi := hi) (q :: t) (by simp) hs' (fun r hr => ⟨by
        rcases List.mem_cons.mp hr with rfl | hr
        · exact le_rfl
        · exact (List.pairwise_cons.mp hm').1 r hr, hb r (by simp [hr])⟩) z).1
    by_cases hx : x ≤ p.1
    · have : npInterp (p :: q :: t) x = p.2 := by
        unfold npInterp; simp [hx]
      rw [this]; exact low y
    · have hy : ¬ y ≤ p.1 := fun h => hx (hxy.trans h)
      have hk : 0 ≤ (q.2 - p.2) / (q.1 - p.1) := div_nonneg (by linarith) (by linarith)
      by_cases hxq : x < q.1
      · have ex : npInterp (p :: q :: t) x = p.2 + (q.2 - p.2) / (q.1 - p.1) * (x - p.1) := by
          conv_lhs => unfold npInterp
          simp [hx, hxq]
        by_cases hyq : y < q.1
        · have ey : npInterp (p :: q :: t) y = p.2 + (q.2 - p.2) / (q.1 - p.1) * (y - p.1) := by
            conv_lhs => unfold npInterp
            simp [hy, hyq]
          rw [ex, ey]; nlinarith
        · have ey : npInterp (p :: q :: t) y = npInterp (q :: t) y := by
            conv_lhs => unfold npInterp
            simp [hy, hyq]
          rw [ex, ey]
          refine le_trans ?_ (low' y)
          have e : q.2 = p.2 + (q.2 - p.2) / (q.1 - p.1) * (q.1 - p.1) := by
            have : q.1 - p.1 ≠ 0 := by linarith
            field_simp; ring
          nlinarith
      · have hyq : ¬ y < q.1 := fun h => hxq (hxy.trans_lt h)
        have ex : npInterp (p :: q :: t) x = npInterp (q :: t) x := by
          conv_lhs => unfold npInterp
          simp [hx, hxq]
        have ey : npInterp (p :: q :: t) y = npInterp (q :: t) y := by
          conv_lhs => unfold npInterp
          simp [hy, hyq]
        rw [ex, ey]
        exact interp_mono (q :: t) hs' hm' hxy

/-! ### The calendar -/

/-- Days in the year before each month's first day, months numbered from 0 (December of the previous year) to 13 (January of the
next), and the days each of them has. -/
def startOf (leap : Bool) (k : ℕ) : ℝ :=
  (if leap then [-31, 0, 31, 60, 91, 121, 152, 182, 213, 244, 274, 305, 335, 366]
    else [-31, 0, 31, 59, 90, 120, 151, 181, 212, 243, 273, 304, 334, 365] : List ℝ).getD k 0
def lengthOf (leap : Bool) (k : ℕ) : ℝ :=
  ([31, 31, if leap then 29 else 28, 31, 30, 31, 30, 31, 31, 30, 31, 30, 31, 31] : List ℝ).getD k 0
/-- The middle of month `k`. -/
def middle (leap : Bool) (k : ℕ) : ℝ := startOf leap k + lengthOf leap k / 2
/-- The value for month `k` of 0..13 from twelve monthly values: December's for month 0 and January's for month 13. -/
def valueOf (lts : List ℝ) (k : ℕ) : ℝ := lts.getD ((k + 11) % 12) 0

/-- **C105** (calendar): the abscissae are the middles of the months, December of the previous to January of the next year. -/
theorem month_middles (leap : Bool) : monthMiddles leap = (List.range 14).map (middle leap) := by
  cases leap <;>
    simp [monthMiddles, monthDays, cumsum, List.range_succ, middle, startOf, lengthOf] <;> norm_num

private theorem nodes (leap : Bool) {lts : List ℝ} (h : lts.length = 12) :
    (monthMiddles leap).zip ([lts.getLastD 0] ++ lts ++ [lts.headD 0]) =
      (List.range 14).map fun k => (middle leap k, valueOf lts k) := by
  rw [month_middles]
  match lts, h with
  | [a, b, c, d, e, f, g, i, j, k, l, m], _ => simp [List.range_succ, valueOf]

private theorem nodes_increasing (leap : Bool) (v : ℕ → ℝ) :
    Increasing ((List.range 14).map fun k => (middle leap k, v k)) := by
  unfold Increasing
  cases leap <;> simp [List.range_succ, middle, startOf, lengthOf] <;> norm_num

/-- **C105**: between the middles of two consecutive months (December of the previous and January of the next year included) the
turbidity is interpolated linearly between their monthly values - so it equals the monthly value at the middle of a month. -/
theorem turbidity_linear (leap : Bool) {lts : List ℝ} (h : lts.length = 12) {k : ℕ} (hk : k ≤ 12) {d : ℝ}
    (h1 : middle leap k ≤ d) (h2 : d ≤ middle leap (k + 1)) :
    interpolateTurbidity lts leap d = valueOf lts k + (valueOf lts (k + 1) - valueOf lts k) *
      ((d - middle leap k) / (middle leap (k + 1) - middle leap k)) := by
  unfold interpolateTurbidity
  dsimp only
  rw [nodes leap h]
  have hl : k + 1 < ((List.range 14).map fun k => (middle leap k, valueOf lts k)).length := by simp; omega
  have := interp_segment _ (nodes_increasing leap (valueOf lts)) k hl d (by simpa using h1) (by simpa using h2)
  rw [this]
  simp

example := turbidity_linear false (lts := [60, 62, 66, 70, 74, 76, 78, 76, 72, 68, 64, 60]) rfl (k := 2) (d := 60) (by norm_num)
  (by norm_num [middle, startOf, lengthOf]) (by norm_num [middle, startOf, lengthOf])

/-- Every day of the year lies in one of these intervals. -/
theorem day_covered (leap : Bool) {d : ℝ} (h0 : 0 ≤ d) (h1 : d ≤ 366) : ∃ k ≤ 12, middle leap k ≤ d ∧ d ≤ middle leap (k + 1) := by
  have key : ∀ n : ℕ, n ≤ 13 → d ≤ middle leap n → middle leap 0 ≤ d → ∃ k ≤ 12, middle leap k ≤ d ∧ d ≤ middle leap (k + 1) := by
    intro n
    induction n with
    | zero => intro _ h h'; exact ⟨0, by norm_num, h', h.trans (by cases leap <;> simp [middle, startOf, lengthOf] <;> norm_num)⟩
    | succ n ih =>
      intro hn h h'
      by_cases hm : middle leap n ≤ d
      · exact ⟨n, by omega, hm, h⟩
      · exact ih (by omega) (not_le.mp hm).le h'
  apply key 13 le_rfl
  · cases leap <;> simp [middle, startOf, lengthOf] <;> norm_num <;> linarith
  · cases leap <;> simp [middle, startOf, lengthOf] <;> norm_num <;> linarith

example := day_covered true (d := 366) (by norm_num) (by norm_num)

/-- **C105**: at the middle of a month the look-up returns that month's value. -/
theorem turbidity_at_middle (leap : Bool) {lts : List ℝ} (h : lts.length = 12) {m : ℕ} (h1 : 1 ≤ m) (h2 : m ≤ 12) :
    interpolateTurbidity lts leap (middle leap m) = lts.getD (m - 1) 0 := by
  have hlt : middle leap m ≤ middle leap (m + 1) := by
    have : m < 13 := by omega
    interval_cases m <;> cases leap <;> simp [middle, startOf, lengthOf] <;> norm_num
  rw [turbidity_linear leap h h2 le_rfl hlt]
  have : (m + 11) % 12 = m - 1 := by omega
  simp [valueOf, this]

/-- **C105**: `lookup_linke_turbidity` succeeds for every location on Earth and every time; the result is a twentieth of the stored
values' interpolation, so it lies within the range of the site's twelve monthly turbidities; without interpolation it is the current
month's. -/
theorem lookup_spec (grid : ℤ → ℤ → List ℝ) (hg : ∀ i j, (grid i j).length = 12) (t : Date) (hm : 1 ≤ t.month ∧ t.month ≤ 12)
    {lat lon : ℝ} (h1 : -90 ≤ lat) (h2 : lat ≤ 90) (h3 : -180 ≤ lon) (h4 : lon ≤ 180) :
    ∃ i j : ℤ, 0 ≤ i ∧ i ≤ 2159 ∧ 0 ≤ j ∧ j ≤ 4319 ∧ |latCentre i - lat| ≤ 1 / 24 ∧ |lonCentre j - lon| ≤ 1 / 24 ∧
      lookupLinke grid t (fin lat) (fin lon) false = .ok ((grid i j).getD (t.month - 1) 0 / 20) ∧
      lookupLinke grid t (fin lat) (fin lon) true = .ok (interpolateTurbidity (grid i j) t.isleap t.dayofyear / 20) ∧
      ∀ (interp : Bool) (lo hi : ℝ), (∀ v ∈ grid i j, lo ≤ v ∧ v ≤ hi) →
        ∃ v, lookupLinke grid t (fin lat) (fin lon) interp = .ok v ∧ lo / 20 ≤ v ∧ v ≤ hi / 20 := by
  obtain ⟨i, hi⟩ := (index_exists lat).1 h1 h2
  obtain ⟨j, hj⟩ := (index_exists lon).2 h3 h4
  obtain ⟨i0, i1, _, i2⟩ := (latIndex_spec lat).2 i hi
  obtain ⟨j0, j1, _, j2⟩ := (lonIndex_spec lon).2 j hj
  have hl := hg i j
  have ef : lookupLinke grid t (fin lat) (fin lon) false = .ok ((grid i j).getD (t.month - 1) 0 / 20) := by
    simp [lookupLinke, hi, hj, Except.bind]
  have et : lookupLinke grid t (fin lat) (fin lon) true = .ok (interpolateTurbidity (grid i j) t.isleap t.dayofyear / 20) := by
    simp [lookupLinke, hi, hj, Except.bind]
  refine ⟨i, j, i0, i1, j0, j1, (i2 ⟨h1, h2⟩).trans (by norm_num), (j2 ⟨h3, h4⟩).trans (by norm_num), ef, et, ?_⟩
  intro interp lo hi' hb
  have hmem : ∀ k, k < 12 → lo ≤ (grid i j).getD k 0 ∧ (grid i j).getD k 0 ≤ hi' := by
    intro k hk
    have hk' : k < (grid i j).length := by omega
    rw [List.getD_eq_getElem?_getD, List.getElem?_eq_getElem hk', Option.getD_some]
    exact hb _ (List.getElem_mem _)
  cases interp with
  | false =>
    refine ⟨_, ef, ?_, ?_⟩
    · have := (hmem (t.month - 1) (by omega)).1; linarith
    · have := (hmem (t.month - 1) (by omega)).2; linarith
  | true =>
    have hr : lo ≤ interpolateTurbidity (grid i j) t.isleap t.dayofyear ∧ interpolateTurbidity (grid i j) t.isleap t.dayofyear ≤ hi' := by
      unfold interpolateTurbidity
      dsimp only
      rw [nodes _ hl]
      apply interp_range _ (by simp [List.range_succ]) (nodes_increasing _ _)
      intro p hp
      obtain ⟨k, _, rfl⟩ := List.mem_map.mp hp
      exact hmem _ (Nat.mod_lt _ (by norm_num))
    exact ⟨_, et, by linarith [hr.1], by linarith [hr.2]⟩

example := lookup_spec (fun _ _ => List.replicate 12 60) (fun _ _ => rfl) ⟨true, 366, 12⟩ (by norm_num) (lat := 32.2) (lon := -110.9)
  (by norm_num) (by norm_num) (by norm_num) (by norm_num)

/-- **C105**: a coordinate off the globe (by more than the rounding margin) or NaN raises ValueError, whatever the file holds. -/
theorem lookup_error (grid : ℤ → ℤ → List ℝ) (t : Date) (interp : Bool) :
    (∀ lat lon : ℝ, lat < -90 - margin / 12 ∨ 90 + margin / 12 < lat → lookupLinke grid t (fin lat) (fin lon) interp = .error .valueError) ∧
    (∀ lat lon : ℝ, -90 ≤ lat → lat ≤ 90 → lon < -180 - margin / 12 ∨ 180 + margin / 12 < lon →
      lookupLinke grid t (fin lat) (fin lon) interp = .error .valueError) ∧
    (∀ lon : Fl, lookupLinke grid t nan lon interp = .error .valueError) := by
  refine ⟨fun lat lon h => ?_, fun lat lon h1 h2 h => ?_, fun lon => ?_⟩
  · simp [lookupLinke, (latIndex_spec lat).1.mpr h, Except.bind]
  · obtain ⟨i, hi⟩ := (index_exists lat).1 h1 h2
    simp [lookupLinke, hi, (lonIndex_spec lon).1.mpr h, Except.bind]
  · simp [lookupLinke, index_nan, Except.bind]

example : interpolateTurbidity [60, 62, 66, 70, 74, 76, 78, 76, 72, 68, 64, 60] false 45 = 62 := by
  have := turbidity_at_middle false (lts := [60, 62, 66, 70, 74, 76, 78, 76, 72, 68, 64, 60]) rfl (m := 2) (by norm_num) (by norm_num)
  have e : middle false 2 = 45 := by simp [middle, startOf, lengthOf]; norm_num
  rw [e] at this; simpa using this

end Pvlib.Props.Linke
end
