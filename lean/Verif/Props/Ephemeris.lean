import Verif.Props.SolarGeometry

/-! # C112, C113: the `ephemeris` algorithm -/

noncomputable section
open scoped Classical
open Real
namespace Pvlib.Props.Ephemeris
open Fl Pvlib.SolarPosition Pvlib.Irradiance Pvlib.Props.SolarGeometry

/-! ## The day count -/

/-- Gregorian leap years. -/
def IsLeap (y : ℕ) : Prop := y % 4 = 0 ∧ (y % 100 ≠ 0 ∨ y % 400 = 0)
/-- Number of days in a year. -/
def yearLen (y : ℕ) : ℕ := if IsLeap y then 366 else 365
/-- Days from 1901 January 1 to January 1 of `1901 + n`. -/
def daysTo : ℕ → ℕ
  | 0 => 0
  | n + 1 => daysTo n + yearLen (1901 + n)

private theorem daysTo_eq (n : ℕ) (h : n ≤ 199) : daysTo n = 365 * n + n / 4 := by
  induction n with
  | zero => rfl
  | succ n ih =>
      rw [daysTo, ih (by omega), yearLen]
      unfold IsLeap
      split_ifs with hl <;> omega

/-- A UTC civil time, second precision given as fields. -/
def civil (y d h mi s us : ℝ) : UtcTime := ⟨fin y, fin d, fin h, fin mi, fin s, fin us⟩

theorem decHours_fin (y d h mi s us : ℝ) :
    decHours (civil y d h mi s us) = fin (h + mi / 60 + s / 3600 + us / 3600e6) := by
  simp only [decHours, civil, ofNat_eq, ofScientific_eq]
  rw [Fl.fin_div (by norm_num), Fl.fin_div (by norm_num), Fl.fin_div (by norm_num)]
  simp

/-- From 1901 to 2100 the internal day count is the number of days since 1899-12-31 12:00 UTC (which is 365.5
days before 1901-01-01 00:00), time of day included to the microsecond. -/
theorem epoch_days (n : ℕ) (hn : n ≤ 199) (d h mi s us : ℝ) :
    epochDate (civil (1901 + n) d h mi s us) =
      fin (365.5 + daysTo n + (d - 1) + (h * 3600 + mi * 60 + s + us / 1000000) / 86400) := by
  have hfl : ⌊(((1901 : ℝ) + n - 1900 - 1) / 4)⌋ = ((n / 4 : ℕ) : ℤ) := by
    rw [Int.floor_eq_iff]
    have h1 := Nat.div_add_mod n 4
    have h2 := Nat.mod_lt n (show 4 > 0 by norm_num)
    have h3 : (n : ℝ) = 4 * ((n / 4 : ℕ) : ℝ) + ((n % 4 : ℕ) : ℝ) := by exact_mod_cast h1.symm
    have h4 : ((n % 4 : ℕ) : ℝ) ≤ 3 := by exact_mod_cast (by omega : n % 4 ≤ 3)
    have h5 : (0:ℝ) ≤ ((n % 4 : ℕ) : ℝ) := by positivity
    rw [Int.cast_natCast]
    constructor <;> [rw [le_div_iff₀ (by norm_num)]; rw [div_lt_iff₀ (by norm_num)]] <;> linarith
  rw [epochDate, decHours_fin]
  simp only [eZero, civil, ofNat_eq, one_eq, ofScientific_eq, fin_sub, Fl.fin_div (show (4:ℝ) ≠ 0 by norm_num), Fl.floor, hfl,
    fin_mul, fin_add, Fl.fin_div (show (24:ℝ) ≠ 0 by norm_num)]
  rw [fin_inj, daysTo_eq n hn, Int.cast_natCast, Nat.cast_add, Nat.cast_mul]
  norm_num
  ring

/-- Outside those years it is off by a day or more: already on 2101 January 1 and 1900 January 1. -/
theorem epoch_days_outside :
    epochDate (civil 2101 1 0 0 0 0) = fin (365.5 + daysTo 200 + 1) ∧
    epochDate (civil 1900 1 0 0 0 0) = fin (0.5 - 1) := by
  have h200 : daysTo 200 = 365 * 200 + 49 := by
    rw [daysTo, daysTo_eq 199 (by norm_num), yearLen, if_neg (by unfold IsLeap; norm_num)]
  have f1 : ⌊((2101 : ℝ) - 1900 - 1) / 4⌋ = 50 := by norm_num
  have f2 : ⌊((1900 : ℝ) - 1900 - 1) / 4⌋ = -1 := by norm_num
  constructor
  · rw [epochDate, decHours_fin]
    simp only [eZero, civil, ofNat_eq, one_eq, ofScientific_eq, fin_sub, Fl.fin_div (show (4:ℝ) ≠ 0 by norm_num), Fl.floor,
      f1, fin_mul, fin_add, Fl.fin_div (show (24:ℝ) ≠ 0 by norm_num), h200]
    rw [fin_inj]; norm_num
  · rw [epochDate, decHours_fin]
    simp only [eZero, civil, ofNat_eq, one_eq, ofScientific_eq, fin_sub, Fl.fin_div (show (4:ℝ) ≠ 0 by norm_num), Fl.floor,
      f2, fin_mul, fin_add, Fl.fin_div (show (24:ℝ) ≠ 0 by norm_num)]
    rw [fin_inj]; norm_num

/-! ## Kepler's equation -/

/-- The right-hand side of Kepler's equation `E = M + e sin E`, in degrees. -/
def keplerRhs (M e E : ℝ) : ℝ := M + e * (180 / π) * Real.sin (E * (π / 180))

private theorem keplerStep_fin (M e E : ℝ) : keplerStep (fin M) (fin e) (fin E) = fin (keplerRhs M e E) := by
  simp [keplerStep, Fl.degrees, Fl.radians, Fl.sin, keplerRhs]

private theorem rhs_lip (M e E E' : ℝ) : |keplerRhs M e E - keplerRhs M e E'| ≤ |e| * |E - E'| := by
  have hp := Real.pi_pos
  have h : |Real.sin (E * (π / 180)) - Real.sin (E' * (π / 180))| ≤ |E * (π / 180) - E' * (π / 180)| := by
    rw [Real.sin_sub_sin, abs_mul, abs_mul, abs_two]
    set a := (E * (π / 180) - E' * (π / 180)) / 2 with ha
    have h1 : |Real.sin a| ≤ |a| := Real.abs_sin_le_abs
    have h2 := Real.abs_cos_le_one ((E * (π / 180) + E' * (π / 180)) / 2)
    have h3 : |E * (π / 180) - E' * (π / 180)| = 2 * |a| := by
      rw [ha, abs_div, abs_two]; ring
    rw [h3]
    have := abs_nonneg (Real.sin a)
    have := abs_nonneg (Real.cos ((E * (π / 180) + E' * (π / 180)) / 2))
    nlinarith
  have e1 : keplerRhs M e E - keplerRhs M e E' =
      e * ((180 / π) * (Real.sin (E * (π / 180)) - Real.sin (E' * (π / 180)))) := by
    unfold keplerRhs; ring
  rw [e1, abs_mul]
  apply mul_le_mul_of_nonneg_left _ (abs_nonneg _)
  rw [abs_mul, abs_of_pos (by positivity : 0 < 180 / π)]
  calc 180 / π * |Real.sin (E * (π / 180)) - Real.sin (E' * (π / 180))|
      ≤ 180 / π * |E * (π / 180) - E' * (π / 180)| := mul_le_mul_of_nonneg_left h (by positivity)
    _ = |E - E'| := by
      rw [← sub_mul, abs_mul, abs_of_pos (by positivity : 0 < π / 180)]; field_simp

/-- Iterates of one element. -/
private def it (p : ℝ × ℝ) : ℕ → ℝ
  | 0 => p.1
  | k + 1 => keplerRhs p.1 p.2 (it p k)

/-- previous iterate (`E`). -/
private def itPrev (p : ℝ × ℝ) : ℕ → ℝ
  | 0 => 0
  | k + 1 => it p k

private theorem gap (a : ℝ) (l : List ℝ) (c : ℝ) :
    (fin c < (l.map fin).foldl maximum (fin a)) ↔ c < a ∨ ∃ x ∈ l, c < x := by
  induction l generalizing a with
  | nil => simp
  | cons x l ih =>
      simp only [List.map_cons, List.foldl_cons, maximum_fin, ih, lt_max_iff, List.mem_cons, exists_eq_or_imp]
      tauto

private theorem goOn_iff (P : List (ℝ × ℝ)) (f g : ℝ × ℝ → ℝ) :
    keplerGoOn (P.map fun p => fin (f p)) (P.map fun p => fin (g p)) ↔ ∃ p ∈ P, 1e-4 < |g p - f p| := by
  have e : List.zipWith (fun a e => Fl.abs (a - e)) (P.map fun p => fin (g p)) (P.map fun p => fin (f p)) =
      (P.map fun p => |g p - f p|).map fin := by
    induction P with
    | nil => rfl
    | cons p P ih => simp [ih]
  rw [keplerGoOn, e]
  cases P with
  | nil => simp
  | cons p P =>
      simp only [List.map_cons, List.foldl_cons, maximum_ninf_fin, ofScientific_eq]
      rw [gap]
      simp

private theorem zipStep (P : List (ℝ × ℝ)) (k : ℕ) :
    List.zipWith (fun (p : Fl × Fl) a => keplerStep p.1 p.2 a) (P.map fun p => (fin p.1, fin p.2))
      (P.map fun p => fin (it p k)) = P.map fun p => fin (it p (k + 1)) := by
  induction P with
  | nil => rfl
  | cons p P ih => simp [ih, keplerStep_fin, it]

private theorem loop_spec (P : List (ℝ × ℝ)) (fuel k : ℕ)
    (h : ∃ j ≤ fuel, ∀ p ∈ P, |it p (k + j) - itPrev p (k + j)| ≤ 1e-4) :
    ∃ j ≤ fuel, (∀ p ∈ P, |it p (k + j) - itPrev p (k + j)| ≤ 1e-4) ∧
      keplerLoop (P.map fun p => (fin p.1, fin p.2)) fuel (P.map fun p => fin (itPrev p k))
        (P.map fun p => fin (it p k)) = some (P.map fun p => fin (it p (k + j))) := by
  induction fuel generalizing k with
  | zero =>
      obtain ⟨j, hj, hs⟩ := h
      obtain rfl : j = 0 := by omega
      refine ⟨0, le_refl _, hs, ?_⟩
      rw [keplerLoop, if_neg]; · rfl
      rw [goOn_iff]; push Not; exact hs
  | succ fuel ih =>
      by_cases h0 : ∀ p ∈ P, |it p k - itPrev p k| ≤ 1e-4
      · refine ⟨0, by omega, h0, ?_⟩
        rw [keplerLoop, if_neg]; · rfl
        rw [goOn_iff]; push Not; exact h0
      · obtain ⟨j, hj, hs⟩ := h
        have hj0 : j ≠ 0 := by rintro rfl; exact h0 hs
        obtain ⟨i, rfl⟩ := Nat.exists_eq_succ_of_ne_zero hj0
        obtain ⟨j', hj', hs', he⟩ := ih (k + 1) ⟨i, by omega, by
          intro p hp; have := hs p hp; rwa [Nat.succ_eq_add_one, show k + (i + 1) = k + 1 + i by omega] at this⟩
        refine ⟨j' + 1, by omega, ?_, ?_⟩
        · intro p hp; have := hs' p hp; rwa [show k + 1 + j' = k + (j' + 1) by omega] at this
        · rw [keplerLoop, if_pos, zipStep, show k + (j' + 1) = k + 1 + j' by omega]
          · exact he
          · rw [goOn_iff]; push Not at h0; exact h0

private theorem it_gap (p : ℝ × ℝ) (q : ℝ) (hq : |p.2| ≤ q) (k : ℕ) :
    |it p (k + 1) - it p k| ≤ 58 * q ^ (k + 1) := by
  have q0 : 0 ≤ q := (abs_nonneg _).trans hq
  induction k with
  | zero =>
      have : it p 1 - it p 0 = p.2 * (180 / π) * Real.sin (p.1 * (π / 180)) := by
        simp [it, keplerRhs]
      rw [zero_add, this, abs_mul, abs_mul, abs_of_pos (by positivity : 0 < 180 / π), pow_one]
      have h1 := Real.abs_sin_le_one (p.1 * (π / 180))
      have h2 : 180 / π ≤ 58 := by
        rw [div_le_iff₀ Real.pi_pos]; linarith [Real.pi_gt_d2]
      have h3 : (0:ℝ) ≤ 180 / π := by positivity
      calc |p.2| * (180 / π) * |Real.sin (p.1 * (π / 180))| ≤ q * 58 * 1 := by
            apply mul_le_mul _ h1 (abs_nonneg _) (by positivity)
            exact mul_le_mul hq h2 h3 q0
        _ = 58 * q := by ring
  | succ k ih =>
      have := rhs_lip p.1 p.2 (it p (k + 1)) (it p k)
      calc |it p (k + 1 + 1) - it p (k + 1)| ≤ |p.2| * |it p (k + 1) - it p k| := this
        _ ≤ q * (58 * q ^ (k + 1)) := mul_le_mul hq ih (abs_nonneg _) q0
        _ = 58 * q ^ (k + 1 + 1) := by ring

/-- When the loop stops, every element solves Kepler's equation to within `e · 1e-4` degrees, and is within
`1e-4 · e / (1 - e)` degrees of every exact solution. -/
private theorem stop_residual (p : ℝ × ℝ) (k : ℕ) (h : |it p k - itPrev p k| ≤ 1e-4) :
    |it p k - keplerRhs p.1 p.2 (it p k)| ≤ |p.2| * 1e-4 := by
  cases k with
  | zero =>
      simp only [it, itPrev, sub_zero] at h ⊢
      have := rhs_lip p.1 p.2 p.1 0
      rw [sub_zero] at this
      have e : keplerRhs p.1 p.2 0 = p.1 := by simp [keplerRhs]
      rw [e, abs_sub_comm] at this
      exact this.trans (mul_le_mul_of_nonneg_left h (abs_nonneg _))
  | succ k =>
      simp only [itPrev] at h
      have := rhs_lip p.1 p.2 (it p k) (it p (k + 1))
      rw [abs_sub_comm (it p k)] at this
      exact this.trans (mul_le_mul_of_nonneg_left h (abs_nonneg _))

private theorem near_solution (M e E x : ℝ) (he : |e| < 1) (hx : |x - keplerRhs M e x| ≤ |e| * 1e-4)
    (hE : E = keplerRhs M e E) : |x - E| ≤ 1e-4 * |e| / (1 - |e|) := by
  have h1 := rhs_lip M e x E
  rw [← hE] at h1
  have h2 : |x - E| ≤ |x - keplerRhs M e x| + |keplerRhs M e x - E| := abs_sub_le _ _ _
  rw [le_div_iff₀ (by linarith)]
  nlinarith

/-- The loop terminates: with all eccentricities at most 0.02 in size it stops after at most four passes,
whatever the number of elements, and the result satisfies Kepler's equation `E = M + e sin E` to
`e · 1e-4` degrees for every element. -/
theorem kepler (P : List (ℝ × ℝ)) (hP : ∀ p ∈ P, |p.2| ≤ 0.02) (fuel : ℕ) (hf : 4 ≤ fuel) :
    ∃ x : ℝ × ℝ → ℝ, keplerLoop (P.map fun p => (fin p.1, fin p.2)) fuel (P.map fun _ => fin 0)
        (P.map fun p => fin p.1) = some (P.map fun p => fin (x p)) ∧
      ∀ p ∈ P, |x p - keplerRhs p.1 p.2 (x p)| ≤ |p.2| * 1e-4 ∧
        ∀ E, E = keplerRhs p.1 p.2 E → |x p - E| ≤ 1e-4 * |p.2| / (1 - |p.2|) := by
  obtain ⟨j, -, hs, he⟩ := loop_spec P fuel 0 ⟨4, hf, by
    intro p hp
    have := it_gap p 0.02 (hP p hp) 3
    simp only [zero_add]
    refine this.trans ?_
    norm_num⟩
  refine ⟨fun p => it p (0 + j), he, ?_⟩
  intro p hp
  have h1 := stop_residual p _ (hs p hp)
  refine ⟨h1, fun E hE => near_solution p.1 p.2 E _ ?_ h1 hE⟩
  exact lt_of_le_of_lt (hP p hp) (by norm_num)

example := kepler [(100, 0.0167), (200, 0.0167)] (by intro p hp; simp only [List.mem_cons, List.not_mem_nil, or_false] at hp; rcases hp with rfl | rfl <;> norm_num [abs_le]) 10 (by norm_num)

private theorem foldl_nan (l : List Fl) : l.foldl maximum nan = nan := by
  induction l with
  | nil => rfl
  | cons x l ih => simp [ih]

private theorem foldl_mem_nan (l : List Fl) (a : Fl) (h : nan ∈ l) : l.foldl maximum a = nan := by
  induction l generalizing a with
  | nil => simp at h
  | cons x l ih =>
      rw [List.foldl_cons]
      rcases List.mem_cons.1 h with rfl | h
      · rw [maximum_nan_right, foldl_nan]
      · exact ih _ h

/-- A NaT anywhere in the index stops the loop before its first pass: every other element then gets its mean
anomaly as eccentric anomaly. -/
theorem nat_stops_kepler (me : List (Fl × Fl)) (fuel : ℕ) (h : nan ∈ me.map Prod.fst) :
    keplerLoop me fuel (me.map fun _ => 0) (me.map Prod.fst) = some (me.map Prod.fst) := by
  have : ¬ keplerGoOn (me.map fun _ => (0 : Fl)) (me.map Prod.fst) := by
    rw [keplerGoOn, foldl_mem_nan]
    · simp
    · rw [List.zipWith_map, List.zipWith_self]
      obtain ⟨p, hp, he⟩ := List.mem_map.1 h
      exact List.mem_map.2 ⟨p, hp, by simp [he]⟩
  cases fuel <;> rw [keplerLoop, if_neg this]

example := nat_stops_kepler [(fin 100, fin 0.0167), (nan, nan)] 10 (by simp)

/-! ## True anomaly -/

/-- The true anomaly belongs to the eccentric anomaly by the exact two-body relations
`cos ν = (cos E - e)/(1 - e cos E)`, `sin ν = √(1-e²) sin E/(1 - e cos E)`. -/
theorem true_anomaly {e E : ℝ} (he : |e| < 1) : ∃ ν, trueAnom (fin e) (fin E) = fin ν ∧
    Real.cos (ν * (π / 180)) * (1 - e * Real.cos (E * (π / 180))) = Real.cos (E * (π / 180)) - e ∧
    Real.sin (ν * (π / 180)) * (1 - e * Real.cos (E * (π / 180))) = √(1 - e ^ 2) * Real.sin (E * (π / 180)) := by
  have hp := Real.pi_pos
  obtain ⟨he1, he2⟩ := abs_lt.1 he
  set y := E * (π / 180) / 2 with hy
  have hE : E * (π / 180) = 2 * y := by rw [hy]; ring
  set k := (1 + e) / (1 - e) with hk
  have hk0 : 0 < k := div_pos (by linarith) (by linarith)
  -- `a` = half of the true anomaly
  have key : ∃ a : ℝ, trueAnom (fin e) (fin E) = fin (2 * (a * (180 / π) - 360 * ⌊a * (180 / π) / 360⌋)) ∧
      (Real.cos y = 0 ∧ a = π / 2 ∨ Real.cos y ≠ 0 ∧ a = Real.arctan (√k * Real.tan y)) := by
    have hr : Fl.rpow ((fin 1 + fin e) / (fin 1 - fin e)) (fin 0.5) = fin (√k) := by
      rw [fin_add, fin_sub, Fl.fin_div (by linarith : (1:ℝ) - e ≠ 0), ← hk]
      unfold Fl.rpow
      rw [if_neg (by norm_num)]
      by_cases h1 : k = 1
      · rw [if_pos (by rw [h1])]; simp [h1]
      · rw [if_neg (by simpa using h1)]
        simp only [hk0.ne', if_false, hk0, if_true]
        rw [Real.sqrt_eq_rpow]; norm_num
    have hr2 : Fl.radians (fin E) / fin 2 = fin y := by
      simp [Fl.radians, hy]
    unfold trueAnom
    simp only [one_eq, ofNat_eq, ofScientific_eq, hr, hr2]
    by_cases hc : Real.cos y = 0
    · refine ⟨π / 2, ?_, Or.inl ⟨hc, rfl⟩⟩
      rw [show Fl.tan (fin y) = pinf by simp [Fl.tan, hc], fin_mul_pinf, infSign_pos (Real.sqrt_pos.2 hk0)]
      simp [Fl.arctan2, Fl.degrees, Fl.mod]
    · refine ⟨Real.arctan (√k * Real.tan y), ?_, Or.inr ⟨hc, rfl⟩⟩
      rw [show Fl.tan (fin y) = fin (Real.tan y) by simp [Fl.tan, hc], fin_mul]
      have : Complex.arg ⟨1, √k * Real.tan y⟩ = Real.arctan (√k * Real.tan y) := by
        rw [Complex.arg_of_re_nonneg (by simp : (0:ℝ) ≤ (⟨1, √k * Real.tan y⟩ : ℂ).re)]
        rw [Real.arctan_eq_arcsin]
        simp only [Complex.norm_def, Complex.normSq_mk]
        congr 3; ring
      simp [Fl.arctan2, Fl.degrees, Fl.mod, this]
  obtain ⟨a, hta, hcase⟩ := key
  refine ⟨_, hta, ?_⟩
  have hred : (2 * (a * (180 / π) - 360 * ⌊a * (180 / π) / 360⌋)) * (π / 180) =
      2 * a - ((2 * ⌊a * (180 / π) / 360⌋ : ℤ) : ℝ) * (2 * π) := by
    push_cast; field_simp; ring
  rw [hred, Real.cos_sub_int_mul_two_pi, Real.sin_sub_int_mul_two_pi, hE, Real.cos_two_mul, Real.sin_two_mul, Real.cos_two_mul,
    Real.sin_two_mul]
  have hsq : √(1 - e ^ 2) = √k * (1 - e) := by
    rw [show √k * (1 - e) = √k * √((1 - e) ^ 2) by rw [Real.sqrt_sq (by linarith)], ← Real.sqrt_mul hk0.le]
    congr 1; rw [hk]; field_simp [show (1:ℝ) - e ≠ 0 by linarith]; ring
  rcases hcase with ⟨hc, ha⟩ | ⟨hc, ha⟩
  · rw [ha, hc, Real.cos_pi_div_two]
    constructor <;> ring
  · set t := √k * Real.tan y with ht
    have hcos : Real.cos a ^ 2 = 1 / (1 + t ^ 2) := by
      rw [ha, Real.cos_sq_arctan]
    have hsin : Real.sin a = t * Real.cos a := by
      rw [ha, Real.sin_arctan, Real.cos_arctan]; ring
    have hpos : 0 < 1 + t ^ 2 := by positivity
    have hk2 : √k ^ 2 = k := Real.sq_sqrt hk0.le
    have htan : Real.tan y * Real.cos y = Real.sin y := by
      rw [Real.tan_eq_sin_div_cos]; field_simp
    have hs2 := Real.sin_sq_add_cos_sq y
    set c := Real.cos y with hcdef
    set s := Real.sin y with hsdef
    have htc : t * c = √k * s := by rw [ht, mul_assoc, htan]
    have htc2 : t ^ 2 * c ^ 2 = k * s ^ 2 := by
      have : (t * c) ^ 2 = (√k * s) ^ 2 := by rw [htc]
      rw [mul_pow t c, mul_pow (√k) s, hk2] at this; exact this
    have hke : k * (1 - e) = 1 + e := by rw [hk]; field_simp [show (1:ℝ) - e ≠ 0 by linarith]
    -- (1 + t²) c² (1 - e) = 1 - e (2c² - 1)
    have hD : (1 + t ^ 2) * c ^ 2 * (1 - e) = 1 - e * (2 * c ^ 2 - 1) := by
      have : (1 + t ^ 2) * c ^ 2 * (1 - e) = c ^ 2 * (1 - e) + (k * (1 - e)) * s ^ 2 := by
        rw [add_mul, htc2]; ring
      rw [this, hke]
      have : s ^ 2 = 1 - c ^ 2 := by linarith
      rw [this]; ring
    have hcc : Real.cos a ^ 2 * (1 - e * (2 * c ^ 2 - 1)) = c ^ 2 * (1 - e) := by
      rw [← hD, hcos]; field_simp
    constructor
    · linear_combination 2 * hcc
    · rw [hsin, hsq]
      have : 2 * (t * Real.cos a) * Real.cos a * (1 - e * (2 * c ^ 2 - 1)) =
          2 * t * (Real.cos a ^ 2 * (1 - e * (2 * c ^ 2 - 1))) := by ring
      rw [this, hcc]
      linear_combination 2 * c * (1 - e) * htc

example := true_anomaly (e := 0.0167) (E := 120) (by norm_num [abs_lt])

/-! ## From ecliptic longitude to azimuth and elevation -/

/-- Specification.  Equatorial unit vector of a point of the ecliptic at longitude `lam`, obliquity `ε`. -/
def sunEcl (ε lam : ℝ) : Fin 3 → ℝ := ![Real.cos lam, Real.cos ε * Real.sin lam, Real.sin ε * Real.sin lam]
/-- Local up, north and east at latitude `φ` and local sidereal time `θ`, in the equatorial frame. -/
def upAt (φ θ : ℝ) : Fin 3 → ℝ := ![Real.cos φ * Real.cos θ, Real.cos φ * Real.sin θ, Real.sin φ]
def northAt (φ θ : ℝ) : Fin 3 → ℝ := ![-(Real.sin φ * Real.cos θ), -(Real.sin φ * Real.sin θ), Real.cos φ]
def eastAt (θ : ℝ) : Fin 3 → ℝ := ![-Real.sin θ, Real.cos θ, 0]

/-- Declination and right ascension have the components of the ecliptic point. -/
theorem equatorial (ε lam : ℝ) (hε : |ε| < π / 2) : ∃ δ α, ephemDec (fin ε) (fin lam) = fin δ ∧
    ephemRtAscen (fin ε) (fin lam) = fin α ∧ -180 < α ∧ α ≤ 180 ∧ 0 < Real.cos δ ∧
    Real.cos δ * Real.cos (α * (π / 180)) = sunEcl ε lam 0 ∧
    Real.cos δ * Real.sin (α * (π / 180)) = sunEcl ε lam 1 ∧ Real.sin δ = sunEcl ε lam 2 := by
  have hp := Real.pi_pos
  have hcε : 0 < Real.cos ε := Real.cos_pos_of_mem_Ioo ⟨by linarith [(abs_lt.1 hε).1], (abs_lt.1 hε).2⟩
  have hsε := Real.sin_sq_add_cos_sq ε
  have hsl := Real.sin_sq_add_cos_sq lam
  set s := Real.sin ε * Real.sin lam with hs
  have hs1 : s ^ 2 < 1 := by
    rw [hs, mul_pow]
    nlinarith [sq_nonneg (Real.sin lam), sq_nonneg (Real.cos lam), pow_pos hcε 2,
      mul_nonneg (sq_nonneg (Real.sin ε)) (sq_nonneg (Real.cos lam))]
  have hl : -1 ≤ s := by nlinarith
  have hu : s ≤ 1 := by nlinarith
  have hno : ¬ (s < -1 ∨ 1 < s) := by rintro (h | h) <;> linarith
  set w : ℂ := ⟨Real.cos lam, Real.cos ε * Real.sin lam⟩ with hw
  have hnorm : ‖w‖ = Real.cos (Real.arcsin s) := by
    rw [Real.cos_arcsin, Complex.norm_def, Complex.normSq_mk]
    congr 1
    have : s ^ 2 = Real.sin ε ^ 2 * Real.sin lam ^ 2 := by rw [hs]; ring
    rw [this]
    nlinarith
  have harg := Complex.arg_mem_Ioc w
  have har : Complex.arg w * (180 / π) * (π / 180) = Complex.arg w := by field_simp
  have hcd : 0 < Real.cos (Real.arcsin s) := by
    rw [Real.cos_arcsin]; exact Real.sqrt_pos.2 (by linarith)
  refine ⟨Real.arcsin s, Complex.arg w * (180 / π), ?_, ?_, ?_, ?_, hcd, ?_, ?_, ?_⟩
  · simp only [ephemDec, Fl.sin, fin_mul, ← hs, Fl.arcsin, hno, if_false]
  · simp [ephemRtAscen, Fl.sin, Fl.cos, Fl.arctan2, Fl.degrees, hw]
  · have : -180 = -π * (180 / π) := by field_simp
    rw [this]
    exact mul_lt_mul_of_pos_right harg.1 (by positivity)
  · have : (180:ℝ) = π * (180 / π) := by field_simp
    calc Complex.arg w * (180 / π) ≤ π * (180 / π) := mul_le_mul_of_nonneg_right harg.2 (by positivity)
      _ = 180 := by field_simp
  · rw [har, ← hnorm, Complex.norm_mul_cos_arg]; rfl
  · rw [har, ← hnorm, Complex.norm_mul_sin_arg]; rfl
  · rw [Real.sin_arcsin hl hu]; rfl

example := equatorial 0.409 1.2 (by rw [abs_of_pos (by norm_num)]; linarith [Real.pi_gt_three])

/-- Azimuth and elevation computed from declination and hour angle are those of the sun's direction. -/
theorem horizon_coords (φ δ h : ℝ) (hδ : 0 < Real.cos δ) : ∃ A e, ephemAzimuth (fin φ) (fin δ) (fin h) = fin A ∧
    ephemElevation (fin φ) (fin δ) (fin h) = fin e ∧ 0 ≤ A ∧ A < 360 ∧ -90 ≤ e ∧ e ≤ 90 ∧
    Real.sin (e * (π / 180)) = sunUp φ δ h ∧
    Real.cos (e * (π / 180)) * Real.cos (A * (π / 180)) = sunNorth φ δ h ∧
    Real.cos (e * (π / 180)) * Real.sin (A * (π / 180)) = sunEast δ h := by
  have hp := Real.pi_pos
  have hm := sunUp_mem φ δ h
  have hno : ¬ (sunUp φ δ h < -1 ∨ 1 < sunUp φ δ h) := by rintro (h | h) <;> linarith [hm.1, hm.2]
  set x := Real.cos φ * Real.tan δ - Real.sin φ * Real.cos h with hx
  set w : ℂ := ⟨x, -Real.sin h⟩ with hw
  have hxN : Real.cos δ * x = sunNorth φ δ h := by
    rw [sunNorth_eq, hx, Real.tan_eq_sin_div_cos]; field_simp
  have hyE : Real.cos δ * -Real.sin h = sunEast δ h := by rw [sunEast_eq]; ring
  have hnorm : Real.cos δ * ‖w‖ = Real.cos (Real.arcsin (sunUp φ δ h)) := by
    rw [Real.cos_arcsin, Complex.norm_def, Complex.normSq_mk, ← Real.sqrt_sq hδ.le, ← Real.sqrt_mul (sq_nonneg _)]
    congr 1
    have := sun_unit φ δ h
    rw [← hxN, ← hyE] at this
    linear_combination this
  have hel : ephemElevation (fin φ) (fin δ) (fin h) = fin (Real.arcsin (sunUp φ δ h) * (180 / π)) := by
    have e : Real.cos φ * Real.cos δ * Real.cos h + Real.sin φ * Real.sin δ = sunUp φ δ h := by rw [sunUp_eq]; ring
    simp only [ephemElevation, Fl.sin, Fl.cos, fin_mul, fin_add, e, Fl.arcsin, hno, if_false, Fl.degrees]
  have haz : ephemAzimuth (fin φ) (fin δ) (fin h) = if Complex.arg w * (180 / π) < 0 then
      fin (Complex.arg w * (180 / π) + 360) else fin (Complex.arg w * (180 / π)) := by
    simp only [ephemAzimuth, Fl.sin, Fl.cos, Fl.tan, hδ.ne', if_false, fin_mul, fin_sub, neg_fin, Fl.arctan2, Fl.degrees,
      ← hx, ← hw, zero_eq, fin_lt, ofNat_eq, fin_add]
  have harg := Complex.arg_mem_Ioc w
  have har : Complex.arg w * (180 / π) * (π / 180) = Complex.arg w := by field_simp
  have hae : Real.arcsin (sunUp φ δ h) * (180 / π) * (π / 180) = Real.arcsin (sunUp φ δ h) := by field_simp
  have h180 : π * (180 / π) = 180 := by field_simp
  have h90 : π / 2 * (180 / π) = 90 := by field_simp; norm_num
  have hc0 : 0 < 180 / π := by positivity
  have hlo : -180 < Complex.arg w * (180 / π) := by
    have := mul_lt_mul_of_pos_right harg.1 hc0; rw [neg_mul, h180] at this; exact this
  have hhi : Complex.arg w * (180 / π) ≤ 180 := by
    have := mul_le_mul_of_nonneg_right harg.2 hc0.le; rw [h180] at this; exact this
  have hcN : Real.cos (Real.arcsin (sunUp φ δ h)) * Real.cos (Complex.arg w) = sunNorth φ δ h := by
    rw [← hnorm, mul_assoc, Complex.norm_mul_cos_arg]; exact hxN
  have hcE : Real.cos (Real.arcsin (sunUp φ δ h)) * Real.sin (Complex.arg w) = sunEast δ h := by
    rw [← hnorm, mul_assoc, Complex.norm_mul_sin_arg]; exact hyE
  refine ⟨if Complex.arg w * (180 / π) < 0 then Complex.arg w * (180 / π) + 360 else Complex.arg w * (180 / π), _, ?_,
    hel, ?_, ?_, ?_, ?_, ?_, ?_, ?_⟩
  · rw [haz]; split_ifs <;> rfl
  · split_ifs with h0 <;> linarith
  · split_ifs with h0 <;> linarith
  · have := mul_le_mul_of_nonneg_right (Real.neg_pi_div_two_le_arcsin (sunUp φ δ h)) hc0.le
    rw [neg_mul, h90] at this; exact this
  · have := mul_le_mul_of_nonneg_right (Real.arcsin_le_pi_div_two (sunUp φ δ h)) hc0.le
    rw [h90] at this; exact this
  · rw [hae, Real.sin_arcsin hm.1 hm.2]
  · rw [hae]; split_ifs
    · rw [add_mul, har, show (360:ℝ) * (π / 180) = 2 * π by ring, Real.cos_add_two_pi]; exact hcN
    · rw [har]; exact hcN
  · rw [hae]; split_ifs
    · rw [add_mul, har, show (360:ℝ) * (π / 180) = 2 * π by ring, Real.sin_add_two_pi]; exact hcE
    · rw [har]; exact hcE

example := horizon_coords 0.7 0.3 1 (Real.cos_pos_of_mem_Ioo ⟨by linarith [Real.pi_gt_three], by linarith [Real.pi_gt_three]⟩)

/-- Refraction in arc seconds times the air-density factor is never negative and at most 2100 arc seconds at
the reference density: the apparent sun is never lower than the true sun. -/
theorem refraction (e p T : ℝ) (he : -90 ≤ e) (he' : e ≤ 90) (hT : -273 < T) :
    ∃ r, ephemRefraction (fin e) (fin p) (fin T) = fin (r / 3600 * (283 / (273 + T) * (p / 101325))) ∧
      0 ≤ r ∧ r ≤ 2100 ∧ (e ≤ -1 ∨ 85 < e → r = 0) := by
  have hp := Real.pi_pos
  have hp1 := Real.pi_gt_d2
  norm_num at hp1
  -- common final factor
  have fac : ∀ r : ℝ, (fin r : Fl) * (fin 283 / (fin 273 + fin T) * (fin p / fin 101325) / fin 3600) =
      fin (r / 3600 * (283 / (273 + T) * (p / 101325))) := by
    intro r
    rw [fin_add, Fl.fin_div (by linarith : (273:ℝ) + T ≠ 0), Fl.fin_div (by norm_num), fin_mul, Fl.fin_div (by norm_num), fin_mul]
    congr 1; ring
  unfold ephemRefraction
  dsimp only
  by_cases h1 : 5 < e ∧ e ≤ 85
  · have h2 : ¬ (-0.575 < e ∧ e ≤ 5) := by rintro ⟨_, h⟩; linarith [h1.1]
    have h3 : ¬ (-1 < e ∧ e ≤ -0.575) := by rintro ⟨_, h⟩; norm_num at h; linarith [h1.1]
    rw [if_neg (show ¬ ((-1:Fl) < fin e ∧ fin e ≤ -0.575) from h3), if_neg (show ¬ ((-0.575:Fl) < fin e ∧ fin e ≤ 5) from h2), if_pos (show (5:Fl) < fin e ∧ fin e ≤ 85 from h1)]
    simp only [ofNat_eq, ofScientific_eq, zero_eq, one_eq, neg_fin]
    have hr1 : e * (π / 180) < π / 2 := by nlinarith [h1.2]
    have hr0 : 0 < e * (π / 180) := by nlinarith [h1.1]
    have hc : 0 < Real.cos (e * (π / 180)) := Real.cos_pos_of_mem_Ioo ⟨by linarith, hr1⟩
    set t := Real.tan (e * (π / 180)) with ht
    have htl : 0.087 < t := by
      have : e * (π / 180) < t := Real.lt_tan hr0 hr1
      have : 5 * (3.14 / 180) < e * (π / 180) := by
        apply mul_lt_mul h1.1 _ (by norm_num) (by linarith [h1.1])
        norm_num; linarith
      norm_num at this ⊢; linarith
    have ht0 : 0 < t := by norm_num at htl ⊢; linarith
    have htan : Fl.tan (Fl.radians (fin e)) = fin t := by simp [Fl.tan, Fl.radians, hc.ne', ht]
    rw [htan, fin_pow, fin_pow, Fl.fin_div ht0.ne', Fl.fin_div (by positivity), Fl.fin_div (by positivity), fin_sub, fin_add,
      fac]
    refine ⟨_, rfl, ?_, ?_, ?_⟩
    · have : 58.1 / t - 0.07 / t ^ 3 + 8.6e-05 / t ^ 5 = (58.1 * t ^ 4 - 0.07 * t ^ 2 + 8.6e-05) / t ^ 5 := by
        field_simp
      rw [this]
      apply div_nonneg _ (by positivity)
      norm_num
      nlinarith [sq_nonneg (t ^ 2 - 0.0006)]
    · have a1 : 58.1 / t ≤ 58.1 / 0.087 := by
        apply div_le_div_of_nonneg_left (by norm_num) (by norm_num) htl.le
      have a2 : 8.6e-05 / t ^ 5 ≤ 8.6e-05 / 0.087 ^ 5 := by
        apply div_le_div_of_nonneg_left (by norm_num) (by norm_num)
        exact pow_le_pow_left₀ (by norm_num) htl.le 5
      have a3 : 0 ≤ 0.07 / t ^ 3 := by positivity
      have a4 : (58.1:ℝ) / 0.087 + 8.6e-05 / 0.087 ^ 5 ≤ 2100 := by norm_num
      linarith
    · rintro (h | h) <;> linarith [h1.1, h1.2]
  · by_cases h2 : -0.575 < e ∧ e ≤ 5
    · have h3 : ¬ (-1 < e ∧ e ≤ -0.575) := by rintro ⟨_, h⟩; linarith [h2.1]
      rw [if_neg (show ¬ ((-1:Fl) < fin e ∧ fin e ≤ -0.575) from h3), if_pos (show (-0.575:Fl) < fin e ∧ fin e ≤ 5 from h2)]
      simp only [ofNat_eq, ofScientific_eq, zero_eq, one_eq, neg_fin, fin_mul, fin_add _ 1735, fin_add (-518.2), fin_add 103.4, fin_add (-12.79)]
      rw [fac]
      obtain ⟨e1, e2⟩ := h2
      refine ⟨_, rfl, ?_, ?_, ?_⟩
      · have hb : 57 ≤ 103.4 - 12.79 * e + 0.711 * e ^ 2 := by
          norm_num at e1 ⊢; nlinarith
        have : e * (-518.2 + e * (103.4 + e * (-12.79 + e * 0.711))) + 1735 =
            1735 - 518.2 * e + e ^ 2 * (103.4 - 12.79 * e + 0.711 * e ^ 2) := by ring
        rw [this]
        have := mul_le_mul_of_nonneg_left hb (sq_nonneg e)
        norm_num at this ⊢
        nlinarith [sq_nonneg (e - 4.54)]
      · have : e * (-518.2 + e * (103.4 + e * (-12.79 + e * 0.711))) + 1735 =
            1735 - e * (518.2 - 103.4 * e + 12.79 * e ^ 2 - 0.711 * e ^ 3) := by ring
        rw [this]
        rcases le_or_gt 0 e with h0 | h0
        · have : 0 ≤ 518.2 - 103.4 * e + 12.79 * e ^ 2 - 0.711 * e ^ 3 := by
            have h5 : 0.711 * e ^ 3 ≤ 0.711 * 5 * e ^ 2 := by
              have : e ^ 3 ≤ 5 * e ^ 2 := by nlinarith [sq_nonneg e]
              norm_num at this ⊢; linarith
            norm_num at h5 ⊢
            nlinarith [sq_nonneg (e - 5)]
          nlinarith
        · have h6 : 518.2 - 103.4 * e + 12.79 * e ^ 2 - 0.711 * e ^ 3 ≤ 600 := by
            have a1 : e ^ 2 ≤ 1 := by norm_num at e1; nlinarith
            have a2 : -e ^ 3 ≤ 1 := by norm_num at e1; nlinarith
            norm_num at e1 ⊢; nlinarith
          have h7 : 0 < 518.2 - 103.4 * e + 12.79 * e ^ 2 - 0.711 * e ^ 3 := by
            have a2 : 0 < -e ^ 3 := by
              have : e ^ 3 = e * e ^ 2 := by ring
              nlinarith [pow_pos (neg_pos.2 h0) 2, sq_nonneg e, sq_pos_of_neg h0]
            norm_num at a2 ⊢; nlinarith [sq_nonneg e]
          norm_num at e1 h6 h7 ⊢; nlinarith
      · rintro (h | h)
        · norm_num at e1; linarith
        · linarith
    · by_cases h3 : -1 < e ∧ e ≤ -0.575
      · rw [if_pos (show (-1:Fl) < fin e ∧ fin e ≤ -0.575 from h3)]
        simp only [ofNat_eq, ofScientific_eq, zero_eq, one_eq, neg_fin]
        obtain ⟨e1, e2⟩ := h3
        have hneg : e < 0 := by norm_num at e2; linarith
        have hx1 : -e * (π / 180) < π / 2 := by nlinarith
        have hx0 : 0 < -e * (π / 180) := by
          apply mul_pos (by linarith) (by positivity)
        have hc : 0 < Real.cos (e * (π / 180)) := by
          rw [← Real.cos_neg, ← neg_mul]; exact Real.cos_pos_of_mem_Ioo ⟨by linarith, hx1⟩
        set t := Real.tan (-e * (π / 180)) with ht
        have htt : Real.tan (e * (π / 180)) = -t := by rw [ht, neg_mul, Real.tan_neg, neg_neg]
        have htl : 0.01 < t := by
          have : -e * (π / 180) < t := Real.lt_tan hx0 hx1
          have : 0.575 * (3.14 / 180) ≤ -e * (π / 180) := by
            apply mul_le_mul _ _ (by norm_num) (by linarith)
            · norm_num at e2 ⊢; linarith
            · norm_num; linarith
          norm_num at this ⊢; linarith
        have ht0 : 0 < t := by norm_num at htl ⊢; linarith
        have htan : Fl.tan (Fl.radians (fin e)) = fin (-t) := by simp [Fl.tan, Fl.radians, hc.ne', htt]
        rw [htan, Fl.fin_div (by linarith), fac, neg_div_neg_eq]
        refine ⟨_, rfl, by positivity, ?_, ?_⟩
        · rw [div_le_iff₀ ht0]; norm_num at htl ⊢; linarith
        · rintro (h | h) <;> linarith
      · rw [if_neg (show ¬ ((-1:Fl) < fin e ∧ fin e ≤ -0.575) from h3), if_neg (show ¬ ((-0.575:Fl) < fin e ∧ fin e ≤ 5) from h2), if_neg (show ¬ ((5:Fl) < fin e ∧ fin e ≤ 85) from h1)]
        simp only [ofNat_eq, ofScientific_eq, zero_eq, one_eq, neg_fin]
        rw [fac]
        exact ⟨0, by simp, le_refl _, by norm_num, fun _ => rfl⟩

example := refraction 10 101325 12 (by norm_num) (by norm_num) (by norm_num)

/-! ## The whole function -/

/-- `mod 360`. -/
private theorem mod360 (x : ℝ) : Fl.mod (fin x) (fin 360) = fin (x - 360 * ⌊x / 360⌋) := by simp [Fl.mod]

private theorem mod360_range (x : ℝ) : 0 ≤ x - 360 * ⌊x / 360⌋ ∧ x - 360 * ⌊x / 360⌋ < 360 := by
  have h1 := Int.floor_le (x / 360)
  have h2 := Int.lt_floor_add_one (x / 360)
  rw [le_div_iff₀ (by norm_num)] at h1
  rw [div_lt_iff₀ (by norm_num)] at h2
  constructor <;> linarith

/-- Specification of one row of the output at centuries `T` since 1900, latitude `lat` degrees, local
sidereal time `θ` degrees, for a sun at ecliptic longitude `lam` and obliquity `ε` (degrees). -/
structure RowSpec (lat θ ε lam p temp : ℝ) (o : EphemOut) : Prop where
  /-- everything is a number -/
  row : ∃ A e ae st : ℝ, o = ⟨fin ae, fin e, fin A, fin (90 - ae), fin (90 - e), fin st⟩ ∧
    0 ≤ A ∧ A < 360 ∧ -90 ≤ e ∧ e ≤ 90 ∧ 0 ≤ st ∧ st ≤ 24 ∧
    -- azimuth and elevation are those of the ecliptic point over the local horizon
    Real.sin (e * (π / 180)) = dot3 (sunEcl (ε * (π / 180)) (lam * (π / 180))) (upAt (lat * (π / 180)) (θ * (π / 180))) ∧
    Real.cos (e * (π / 180)) * Real.cos (A * (π / 180)) =
      dot3 (sunEcl (ε * (π / 180)) (lam * (π / 180))) (northAt (lat * (π / 180)) (θ * (π / 180))) ∧
    Real.cos (e * (π / 180)) * Real.sin (A * (π / 180)) =
      dot3 (sunEcl (ε * (π / 180)) (lam * (π / 180))) (eastAt (θ * (π / 180))) ∧
    -- solar time is 12 h plus 1 h per 15° of hour angle: θ - right ascension = 15°·(st - 12) modulo a turn
    (∃ (δ α : ℝ) (n : ℤ), Real.cos δ * Real.cos (α * (π / 180)) = Real.cos (lam * (π / 180)) ∧
      Real.cos δ * Real.sin (α * (π / 180)) = Real.cos (ε * (π / 180)) * Real.sin (lam * (π / 180)) ∧ 0 < Real.cos δ ∧
      θ - α = 15 * (st - 12) + 360 * n) ∧
    -- refraction raises the sun
    (0 ≤ p → e ≤ ae ∧ ae ≤ e + 2100 / 3600 * (283 / (273 + temp) * (p / 101325))) ∧
    (e ≤ -1 ∨ 85 < e → ae = e)

private theorem up_rot (φ θ α δ c : ℝ) : 
    Real.cos δ * Real.cos φ * Real.cos (θ - α) + c * Real.sin φ =
      Real.cos δ * Real.cos α * (Real.cos φ * Real.cos θ) + Real.cos δ * Real.sin α * (Real.cos φ * Real.sin θ) +
        c * Real.sin φ := by
  rw [Real.cos_sub]; ring

private theorem wrap_spec (H : ℝ) (h1 : -180 ≤ H) (h2 : H < 540) : ∃ w, wrapHrAngle (fin H) = fin w ∧
    -180 ≤ w ∧ w ≤ 180 ∧ ∃ n : ℤ, H = w + 360 * n := by
  unfold wrapHrAngle
  by_cases h : 180 < |H|
  · have hh : (180:Fl) < Fl.abs (fin H) := h
    rw [if_pos hh]
    have : 180 < H := by
      rcases lt_abs.1 h with h | h <;> linarith
    refine ⟨H - 360, by simp, by linarith, by linarith, 1, by push_cast; ring⟩
  · have hh : ¬ (180:Fl) < Fl.abs (fin H) := h
    rw [if_neg hh]
    have := (abs_le.1 (not_lt.1 h))
    refine ⟨H, by simp, this.1, this.2, 0, by simp⟩

/-- One row, given a finite eccentric anomaly. -/
theorem row_spec {t : UtcTime} {lat lon p temp E ε lam θ : ℝ} (hε : |ε| < 90) (hT : -273 < temp)
    (h1 : (orbit t).1 = fin (ε * (π / 180))) (h2 : locAST t (fin lon) = fin θ) (hθ0 : 0 ≤ θ) (hθ1 : θ < 360)
    (h3 : eclipticLongitude (orbit t).2.1 (trueAnom (orbit t).2.2.2 (fin E)) = fin (lam * (π / 180))) :
    RowSpec lat θ ε lam p temp (ephemFinish t (fin lat) (fin lon) (fin p) (fin temp) (fin E)) := by
  have hp := Real.pi_pos
  have hε' : |ε * (π / 180)| < π / 2 := by
    rw [abs_mul, abs_of_pos (by positivity : 0 < π / 180)]; nlinarith
  obtain ⟨δ, α, hd, ha, a1, a2, hcd, e1, e2, e3⟩ := equatorial (ε * (π / 180)) (lam * (π / 180)) hε'
  obtain ⟨A, e, hA, he, A0, A1, el0, el1, s1, s2, s3⟩ :=
    horizon_coords (lat * (π / 180)) δ ((θ - α) * (π / 180)) hcd
  obtain ⟨w, hw, w1, w2, n, hn⟩ := wrap_spec (θ - α) (by linarith) (by linarith)
  obtain ⟨r, hr, r0, r1, r2⟩ := refraction e p temp el0 el1 hT
  have e1' : Real.cos δ * Real.cos (α * (π / 180)) = Real.cos (lam * (π / 180)) := e1
  have e2' : Real.cos δ * Real.sin (α * (π / 180)) = Real.cos (ε * (π / 180)) * Real.sin (lam * (π / 180)) := e2
  have e3' : Real.sin δ = Real.sin (ε * (π / 180)) * Real.sin (lam * (π / 180)) := e3
  have hrad : ∀ x : ℝ, Fl.radians (fin x) = fin (x * (π / 180)) := fun _ => rfl
  refine ⟨A, e, e + r / 3600 * (283 / (273 + temp) * (p / 101325)), (180 + w) / 15, ?_, A0, A1, el0, el1,
    by apply div_nonneg <;> linarith, by rw [div_le_iff₀ (by norm_num)]; linarith, ?_, ?_, ?_, ?_, ?_, ?_⟩
  · simp only [ephemFinish, h1, h2, h3, hd, ha, fin_sub, hrad, hA, he, hw, hr, fin_add, ofNat_eq,
      Fl.fin_div (show (15:ℝ) ≠ 0 by norm_num)]
  · rw [s1, sunUp_eq, sub_mul, Real.cos_sub]
    simp only [dot3, sunEcl, upAt, Matrix.cons_val_zero, Matrix.cons_val_one, Matrix.cons_val]
    rw [← e1', ← e2', ← e3']; ring
  · rw [s2, sunNorth_eq, sub_mul, Real.cos_sub]
    simp only [dot3, sunEcl, northAt, Matrix.cons_val_zero, Matrix.cons_val_one, Matrix.cons_val]
    rw [← e1', ← e2', ← e3']; ring
  · rw [s3, sunEast_eq, sub_mul, Real.sin_sub]
    simp only [dot3, sunEcl, eastAt, Matrix.cons_val_zero, Matrix.cons_val_one, Matrix.cons_val]
    rw [← e1', ← e2', ← e3']; ring
  · exact ⟨δ, α, n, e1', e2', hcd, by rw [hn]; ring⟩
  · intro hp0
    have hf : 0 ≤ 283 / (273 + temp) * (p / 101325) := by
      apply mul_nonneg <;> apply div_nonneg <;> linarith
    constructor
    · have := mul_nonneg (div_nonneg r0 (by norm_num : (0:ℝ) ≤ 3600)) hf; linarith
    · have : r / 3600 * (283 / (273 + temp) * (p / 101325)) ≤ 2100 / 3600 * (283 / (273 + temp) * (p / 101325)) :=
        mul_le_mul_of_nonneg_right (by linarith) hf
      linarith
  · intro h; rw [r2 h]; ring

/-- The orbital elements as real functions of the days `d` since the epoch (pvlib's own polynomials). -/
def obliq (d : ℝ) : ℝ := 23.452294 - 0.0130125 * (d / 36525) - 1.64e-06 * (d / 36525) ^ 2 + 5.03e-07 * (d / 36525) ^ 3
def perigee (d : ℝ) : ℝ := 281.22083 + 4.70684e-05 * d + 0.000453 * (d / 36525) ^ 2 + 3e-06 * (d / 36525) ^ 3
def meanAnomaly (d : ℝ) : ℝ := 358.47583 + 0.985600267 * d - 0.00015 * (d / 36525) ^ 2 - 3e-06 * (d / 36525) ^ 3
def eccentricity (d : ℝ) : ℝ := 0.01675104 - 4.18e-05 * (d / 36525) - 1.26e-07 * (d / 36525) ^ 2

private theorem orbit_fin {t : UtcTime} {d : ℝ} (h : epochDate t = fin d) :
    orbit t = (fin (obliq d * (π / 180)), fin (perigee d),
      fin (meanAnomaly d - 360 * ⌊meanAnomaly d / 360⌋), fin (eccentricity d)) := by
  simp only [orbit, h, ofNat_eq, ofScientific_eq, Fl.fin_div (show (36525:ℝ) ≠ 0 by norm_num), fin_pow, fin_mul, fin_sub,
    fin_add, mod360, Fl.radians]
  rfl

private theorem elements_range {d : ℝ} (h : |d / 36525| ≤ 100) : |eccentricity d| ≤ 0.02 ∧ |obliq d| < 90 := by
  unfold eccentricity obliq
  set x := d / 36525
  obtain ⟨h1, h2⟩ := abs_le.1 h
  have h3 : x ^ 2 ≤ 10000 := by nlinarith
  have h4 : 0 ≤ x ^ 2 := sq_nonneg x
  have h5 : |x ^ 3| ≤ 1000000 := by
    rw [abs_pow]
    calc |x| ^ 3 ≤ 100 ^ 3 := pow_le_pow_left₀ (abs_nonneg _) h 3
      _ = 1000000 := by norm_num
  obtain ⟨h6, h7⟩ := abs_le.1 h5
  constructor
  · have h8 := sq_nonneg (x + 100)
    rw [abs_le]; norm_num; constructor <;> nlinarith
  · rw [abs_lt]; norm_num; constructor <;> linarith

/-- `ephemeris` on any non-empty index of times within 10 000 years of 1900: the Kepler loop always ends
within four passes and no value is NaN; each row is the direction of a sun in Keplerian motion (eccentric
anomaly solving Kepler's equation to `e·1e-4` degrees, true anomaly and ecliptic longitude derived from it
exactly), seen from the site. -/
theorem ephemeris_spec (l : List UtcTime) (d θ : UtcTime → ℝ) (lat lon p temp : ℝ) (hl : l ≠ [])
    (hd : ∀ t ∈ l, epochDate t = fin (d t) ∧ |d t / 36525| ≤ 100)
    (hθ : ∀ t ∈ l, locAST t (fin lon) = fin (θ t)) (hT : -273 < temp) (fuel : ℕ) (hf : 4 ≤ fuel) :
    ∃ out : UtcTime → EphemOut, ephemeris fuel l (fin lat) (fin lon) (fin p) (fin temp) = .ok (some (l.map out)) ∧
      ∀ t ∈ l, ∃ M E ν lam : ℝ, (∃ n : ℤ, M = meanAnomaly (d t) - 360 * n) ∧ 0 ≤ M ∧ M < 360 ∧
        |E - keplerRhs M (eccentricity (d t)) E| ≤ |eccentricity (d t)| * 1e-4 ∧
        (Real.cos (ν * (π / 180)) * (1 - eccentricity (d t) * Real.cos (E * (π / 180))) =
          Real.cos (E * (π / 180)) - eccentricity (d t)) ∧
        (Real.sin (ν * (π / 180)) * (1 - eccentricity (d t) * Real.cos (E * (π / 180))) =
          √(1 - eccentricity (d t) ^ 2) * Real.sin (E * (π / 180))) ∧
        (∃ n : ℤ, lam = perigee (d t) + ν - 20 / 3600 - 360 * n) ∧
        RowSpec lat (θ t) (obliq (d t)) lam p temp (out t) := by
  set M : UtcTime → ℝ := fun t => meanAnomaly (d t) - 360 * ⌊meanAnomaly (d t) / 360⌋ with hM
  have horb : ∀ t ∈ l, orbit t = (fin (obliq (d t) * (π / 180)), fin (perigee (d t)), fin (M t), fin (eccentricity (d t))) :=
    fun t ht => orbit_fin (hd t ht).1
  have hme : (l.map fun t => ((orbit t).2.2.1, (orbit t).2.2.2)) =
      (l.map fun t => (M t, eccentricity (d t))).map fun p : ℝ × ℝ => (fin p.1, fin p.2) := by
    rw [List.map_map]
    apply List.map_congr_left
    intro t ht; rw [horb t ht]; rfl
  obtain ⟨x, hx, hxs⟩ := kepler (l.map fun t => (M t, eccentricity (d t))) (by
    intro q hq
    obtain ⟨t, ht, rfl⟩ := List.mem_map.1 hq
    exact (elements_range (hd t ht).2).1) fuel hf
  have hx' : keplerLoop (l.map fun t => ((orbit t).2.2.1, (orbit t).2.2.2)) fuel (l.map fun _ => 0)
      ((l.map fun t => ((orbit t).2.2.1, (orbit t).2.2.2)).map Prod.fst) =
      some (l.map fun t => fin (x (M t, eccentricity (d t)))) := by
    rw [hme]
    simpa [List.map_map, Function.comp_def] using hx
  refine ⟨fun t => ephemFinish t (fin lat) (fin lon) (fin p) (fin temp) (fin (x (M t, eccentricity (d t)))), ?_, ?_⟩
  · rw [ephemeris, if_neg hl]
    simp only [hx']
    rw [List.zipWith_map_right, List.zipWith_self]
  · intro t ht
    have hr := hxs (M t, eccentricity (d t)) (List.mem_map.2 ⟨t, ht, rfl⟩)
    set E := x (M t, eccentricity (d t)) with hE
    have hel := elements_range (hd t ht).2
    obtain ⟨ν, hν, n1, n2⟩ := true_anomaly (e := eccentricity (d t)) (E := E) (lt_of_le_of_lt hel.1 (by norm_num))
    have hec : eclipticLongitude (fin (perigee (d t))) (fin ν) =
        fin ((perigee (d t) + ν - 360 * ⌊(perigee (d t) + ν) / 360⌋ - 20 / 3600) * (π / 180)) := by
      simp only [eclipticLongitude, fin_add, ofNat_eq, mod360, Fl.fin_div (show (3600:ℝ) ≠ 0 by norm_num), fin_sub, Fl.radians,
        fin_mul]
    have hmr := mod360_range (meanAnomaly (d t))
    refine ⟨M t, E, ν, perigee (d t) + ν - 360 * ⌊(perigee (d t) + ν) / 360⌋ - 20 / 3600, ⟨_, rfl⟩, hmr.1, hmr.2, hr.1, n1, n2,
      ⟨⌊(perigee (d t) + ν) / 360⌋, by ring⟩, ?_⟩
    have hθt := hθ t ht
    have hθr : 0 ≤ θ t ∧ θ t < 360 := by
      unfold locAST at hθt
      have hfin : ∃ y, (360 + gmst t - (-1) * fin lon : Fl) = fin y := by
        generalize (360 + gmst t - (-1) * fin lon : Fl) = y at hθt ⊢
        cases y <;> simp [Fl.mod] at hθt ⊢
      obtain ⟨y, hy⟩ := hfin
      rw [hy, ofNat_eq, mod360, fin_inj] at hθt
      rw [← hθt]; exact mod360_range y
    apply row_spec hel.2 hT _ hθt hθr.1 hθr.2
    · rw [horb t ht]; dsimp only; rw [hν, hec]
    · rw [horb t ht]

/-- Civil times have a local sidereal time and day count, so `ephemeris_spec` applies to them. -/
theorem civil_ok (y d h mi s us lon : ℝ) : ∃ D θ, epochDate (civil y d h mi s us) = fin D ∧
    locAST (civil y d h mi s us) (fin lon) = fin θ := by
  have hz : ∃ r, eZero (civil y d h mi s us) = fin r := by
    simp [eZero, civil, Fl.floor]
  obtain ⟨r, hr⟩ := hz
  suffices (∃ D, epochDate (civil y d h mi s us) = fin D) ∧ ∃ θ, locAST (civil y d h mi s us) (fin lon) = fin θ by
    obtain ⟨⟨D, hD⟩, θ, hθ⟩ := this
    exact ⟨D, θ, hD, hθ⟩
  constructor
  · exact ⟨_, by rw [epochDate, hr, decHours_fin, ofNat_eq, Fl.fin_div (show (24:ℝ) ≠ 0 by norm_num), fin_add]⟩
  · simp only [locAST, gmst, hr, decHours_fin, ofNat_eq, ofScientific_eq, one_eq, neg_fin,
      Fl.fin_div (show (24:ℝ) ≠ 0 by norm_num), Fl.fin_div (show (1440:ℝ) ≠ 0 by norm_num),
      Fl.fin_div (show (36525:ℝ) ≠ 0 by norm_num), Fl.fin_div (show (86400:ℝ) ≠ 0 by norm_num), fin_pow, fin_mul, fin_add, Fl.floor,
      fin_sub, mod360]
    exact ⟨_, rfl⟩

/-- Sidereal time depends on longitude as it must: a site `Δ` degrees further east has local sidereal time
`Δ` larger, modulo a turn. -/
theorem sidereal_longitude (t : UtcTime) (lon Δ θ θ' : ℝ) (h : locAST t (fin lon) = fin θ)
    (h' : locAST t (fin (lon + Δ)) = fin θ') : ∃ n : ℤ, θ' = θ + Δ + 360 * n := by
  unfold locAST at h h'
  cases hg : gmst t with
  | fin g =>
      rw [hg] at h h'
      simp only [ofNat_eq, one_eq, neg_fin, fin_add, fin_mul, fin_sub, mod360, fin_inj] at h h'
      refine ⟨⌊(360 + g - -1 * lon) / 360⌋ - ⌊(360 + g - -1 * (lon + Δ)) / 360⌋, ?_⟩
      rw [← h, ← h']; push_cast; ring
  | nan => rw [hg] at h; simp [Fl.mod] at h
  | pinf => rw [hg] at h; simp [Fl.mod] at h
  | ninf => rw [hg] at h; simp [Fl.mod] at h

example := sidereal_longitude (civil 2024 173 12 0 0 0) (-105) 15 _ _ (civil_ok 2024 173 12 0 0 0 (-105)).choose_spec.choose_spec.2
  (civil_ok 2024 173 12 0 0 0 (-105 + 15)).choose_spec.choose_spec.2

/-- An empty index raises ValueError (`np.max` of an empty array). -/
theorem ephemeris_empty (fuel : ℕ) (lat lon p temp : Fl) : ephemeris fuel [] lat lon p temp = .error .valueError := by
  simp [ephemeris]

/-- A single NaT in the index makes every other row use the mean anomaly instead of the solution of Kepler's
equation. -/
theorem ephemeris_nat (l : List UtcTime) (h : ∃ t ∈ l, (orbit t).2.2.1 = nan) (fuel : ℕ) (lat lon p temp : Fl) :
    ephemeris fuel l lat lon p temp =
      .ok (some (l.map fun t => ephemFinish t lat lon p temp (orbit t).2.2.1)) := by
  obtain ⟨t, ht, hn⟩ := h
  have hl : l ≠ [] := List.ne_nil_of_mem ht
  have := nat_stops_kepler (l.map fun t => ((orbit t).2.2.1, (orbit t).2.2.2)) fuel (by
    rw [List.map_map]; exact List.mem_map.2 ⟨t, ht, hn⟩)
  rw [List.map_map] at this
  rw [ephemeris, if_neg hl]
  simp only [List.map_map, Function.comp_def] at this ⊢
  simp only [this]
  rw [List.zipWith_map_right, List.zipWith_self]

/-- Two instants of 2024 June 21: the whole computation is specified. -/
example (fuel : ℕ) (hf : 4 ≤ fuel) : ∃ out, ephemeris fuel [civil (1901 + (123 : ℕ)) 173 12 0 0 0, civil (1901 + (123 : ℕ)) 173 13 0 0 0]
    (fin 40) (fin (-105)) (fin 101325) (fin 12) = .ok (some out) := by
  obtain ⟨out, h, -⟩ := ephemeris_spec [civil (1901 + (123 : ℕ)) 173 12 0 0 0, civil (1901 + (123 : ℕ)) 173 13 0 0 0]
    (fun t => match epochDate t with | fin x => x | _ => 0) (fun t => match locAST t (fin (-105)) with | fin x => x | _ => 0) 40 (-105) 101325 12 (by simp)
    (by
      intro t ht
      simp only [List.mem_cons, List.not_mem_nil, or_false] at ht
      rcases ht with rfl | rfl
      · rw [epoch_days 123 (by norm_num) 173 12 0 0 0, daysTo_eq 123 (by norm_num)]
        refine ⟨rfl, ?_⟩
        dsimp only; rw [abs_le]; norm_num
      · rw [epoch_days 123 (by norm_num) 173 13 0 0 0, daysTo_eq 123 (by norm_num)]
        refine ⟨rfl, ?_⟩
        dsimp only; rw [abs_le]; norm_num)
    (by
      intro t ht
      simp only [List.mem_cons, List.not_mem_nil, or_false] at ht
      rcases ht with rfl | rfl
      · obtain ⟨_, θ, -, h⟩ := civil_ok (1901 + (123 : ℕ)) 173 12 0 0 0 (-105)
        rw [h]
      · obtain ⟨_, θ, -, h⟩ := civil_ok (1901 + (123 : ℕ)) 173 13 0 0 0 (-105)
        rw [h])
    (by norm_num) fuel hf
  exact ⟨_, h⟩

/-- Witness: 2024 June 21, 12:00 UTC. -/
example : ∃ D, epochDate (civil (1901 + (123 : ℕ)) 173 12 0 0 0) = fin D ∧ |D / 36525| ≤ 100 := by
  refine ⟨_, epoch_days 123 (by norm_num) 173 12 0 0 0, ?_⟩
  rw [daysTo_eq 123 (by norm_num)]
  rw [abs_le]; norm_num

end Pvlib.Props.Ephemeris
end
