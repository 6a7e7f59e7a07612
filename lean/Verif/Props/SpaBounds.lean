import Verif.Model.Spa
import Mathlib.Analysis.Real.Pi.Bounds
import Mathlib.Algebra.Order.BigOperators.Group.List

/-! # C116: the earth-sun distance, heliocentric coordinates and nutation -/

noncomputable section
open scoped Classical
open Real
namespace Pvlib.Props.SpaBounds
open Fl Pvlib.Spa Pvlib.Tools

/-! ### Trigonometric series -/

/-- Sum of the absolute amplitudes of a table. -/
def amp (arr : List (ℚ × ℚ × ℚ)) : ℚ := (arr.map fun r => |r.1|).sum

/-- Value of a series. -/
def ser (arr : List (ℚ × ℚ × ℚ)) (x : ℝ) : ℝ := (arr.map fun r => (r.1 : ℝ) * Real.cos (r.2.1 + r.2.2 * x)).sum

theorem foldl_ser (arr : List (ℚ × ℚ × ℚ)) (x s : ℝ) :
    arr.foldl (fun s r => s + q r.1 * Fl.cos (q r.2.1 + q r.2.2 * fin x)) (fin s) = fin (s + ser arr x) := by
  induction arr generalizing s with
  | nil => simp [ser]
  | cons r arr ih =>
    rw [List.foldl_cons]
    have : fin s + q r.1 * Fl.cos (q r.2.1 + q r.2.2 * fin x) =
        fin (s + (r.1 : ℝ) * Real.cos (r.2.1 + r.2.2 * x)) := by simp [q]
    rw [this, ih]
    simp only [ser, List.map_cons, List.sum_cons, fin_inj]
    ring

theorem sum_fin (arr : List (ℚ × ℚ × ℚ)) (x : ℝ) : sumMultCos arr (fin x) = fin (ser arr x) := by
  unfold sumMultCos
  rw [zero_eq, foldl_ser, zero_add]

theorem ser_le (arr : List (ℚ × ℚ × ℚ)) (x : ℝ) : |ser arr x| ≤ amp arr := by
  induction arr with
  | nil => simp [ser, amp]
  | cons r arr ih =>
    simp only [ser, amp, List.map_cons, List.sum_cons] at ih ⊢
    rw [Rat.cast_add, Rat.cast_abs]
    have h1 : |(r.1 : ℝ) * Real.cos (r.2.1 + r.2.2 * x)| ≤ |(r.1 : ℝ)| := by
      rw [abs_mul]
      exact mul_le_of_le_one_right (abs_nonneg _) (Real.abs_cos_le_one _)
    calc _ ≤ _ := abs_add_le _ _
      _ ≤ _ := add_le_add h1 ih

/-- The constant term of a series split off. -/
theorem ser_split (a : ℚ) (rest : List (ℚ × ℚ × ℚ)) (x : ℝ) :
    ser ((a, 0, 0) :: rest) x = a + ser rest x := by
  simp [ser]

theorem amp_bound {arr : List (ℚ × ℚ × ℚ)} {c : ℚ} (h : amp arr ≤ c) (x : ℝ) : |ser arr x| ≤ (c : ℝ) :=
  (ser_le arr x).trans (by exact_mod_cast h)

private theorem aR0 : amp tabR0.tail ≤ 1695887 := by decide +kernel
private theorem hR0 : tabR0 = (100013989, 0, 0) :: tabR0.tail := by decide +kernel
private theorem aR1 : amp tabR1 ≤ 105576 := by decide +kernel
private theorem aR2 : amp tabR2 ≤ 4513 := by decide +kernel
private theorem aR3 : amp tabR3 ≤ 152 := by decide +kernel
private theorem aR4 : amp tabR4 ≤ 4 := by decide +kernel
private theorem aB0 : amp tabB0 ≤ 538 := by decide +kernel
private theorem aB1 : amp tabB1 ≤ 15 := by decide +kernel


private theorem pow_bound {x c : ℝ} (h : |x| ≤ c) (n : ℕ) : |x ^ n| ≤ c ^ n := by
  rw [abs_pow]
  exact pow_le_pow_left₀ (abs_nonneg _) h n

private theorem term_bound {a x A c : ℝ} (ha : |a| ≤ A) (hx : |x| ≤ c) (n : ℕ) : |a * x ^ n| ≤ A * c ^ n := by
  rw [abs_mul]
  exact mul_le_mul ha (pow_bound hx n) (abs_nonneg _) ((abs_nonneg _).trans ha)

/-- The distance as a real number. -/
def dist (jme : ℝ) : ℝ :=
  (ser tabR0 jme + ser tabR1 jme * jme + ser tabR2 jme * jme ^ 2 + ser tabR3 jme * jme ^ 3 +
    ser tabR4 jme * jme ^ 4) / 100000000

theorem radius_fin (jme : ℝ) : heliocentricRadiusVector (fin jme) = fin (dist jme) := by
  unfold heliocentricRadiusVector dist
  simp only [sum_fin, ofNat_eq, fin_mul, fin_pow, fin_add]
  rw [fin_div (by norm_num)]

/-- The distance differs from 1.00013989 by at most the sum of the amplitudes. -/
theorem dist_bound {jme c : ℝ} (h : |jme| ≤ c) :
    |dist jme - 1.00013989| ≤ (1695887 + 105576 * c + 4513 * c ^ 2 + 152 * c ^ 3 + 4 * c ^ 4) / 100000000 := by
  have e0 : ser tabR0 jme = 100013989 + ser tabR0.tail jme := by
    conv_lhs => rw [hR0]
    rw [ser_split]
    norm_num
  have b0 := amp_bound aR0 jme
  have b1 := term_bound (amp_bound aR1 jme) h 1
  have b2 := term_bound (amp_bound aR2 jme) h 2
  have b3 := term_bound (amp_bound aR3 jme) h 3
  have b4 := term_bound (amp_bound aR4 jme) h 4
  unfold dist
  rw [e0]
  push_cast at b0 b1 b2 b3 b4
  rw [pow_one] at b1
  rw [abs_le] at *
  rw [pow_one] at b1
  constructor
  · norm_num
    rw [← sub_nonneg]
    have : 0 ≤ (ser tabR0.tail jme + 1695887) + (ser tabR1 jme * jme + 105576 * c) +
      (ser tabR2 jme * jme ^ 2 + 4513 * c ^ 2) + (ser tabR3 jme * jme ^ 3 + 152 * c ^ 3) +
      (ser tabR4 jme * jme ^ 4 + 4 * c ^ 4) := by linarith
    linarith
  · norm_num
    linarith

/-- **C116.** Earth-sun distance: for every instant within 4000 years of J2000 the result is between 0.978 and
1.0222 astronomical units. -/
theorem distance_range (jme : ℝ) (h : |jme| ≤ 4) :
    ∃ R, heliocentricRadiusVector (fin jme) = fin R ∧ 0.978 < R ∧ R < 1.0222 := by
  refine ⟨_, radius_fin jme, ?_⟩
  have := dist_bound h
  rw [abs_le] at this
  norm_num at this ⊢
  constructor <;> linarith

example := distance_range 0.02 (by norm_num [abs_le])

/-- Within a century of J2000 (years 1900 to 2100) it is between 0.983 and 1.0173 astronomical units. -/
theorem distance_range_century (jme : ℝ) (h : |jme| ≤ 0.1) :
    ∃ R, heliocentricRadiusVector (fin jme) = fin R ∧ 0.983 < R ∧ R < 1.0173 := by
  refine ⟨_, radius_fin jme, ?_⟩
  have := dist_bound h
  rw [abs_le] at this
  norm_num at this ⊢
  constructor <;> linarith

example := distance_range_century 0.02 (by norm_num [abs_le])

/-- The public function: at unix time `t` with time correction `dt`. -/
theorem spa_distance_range (t dt : ℝ) (h : |(t + dt) / 86400 + 2440587.5 - 2451545| ≤ 4 * 365250) :
    ∃ R, spaRadius (fin t) (fin dt) = fin R ∧ 0.978 < R ∧ R < 1.0222 := by
  have e : spaRadius (fin t) (fin dt) =
      heliocentricRadiusVector (fin (((t + dt) / 86400 + 2440587.5 - 2451545) / 365250)) := by
    unfold spaRadius julianEphemerisMillennium julianEphemerisCentury julianEphemerisDay julianDay
    simp only [ofNat_eq, ofScientific_eq, fin_mul]
    rw [fin_div (by norm_num), fin_div (by norm_num)]
    simp only [fin_add, fin_sub, fin_mul]
    rw [fin_div (by norm_num), fin_mul, fin_div (by norm_num)]
    congr 2
    norm_num
    ring
  rw [e]
  refine distance_range _ ?_
  rw [abs_div, abs_of_pos (show (0 : ℝ) < 365250 by norm_num), div_le_iff₀ (by norm_num)]
  exact h

/-! ### Heliocentric longitude and latitude -/

theorem mod360 (x : ℝ) : 0 ≤ x - 360 * ⌊x / 360⌋ ∧ x - 360 * ⌊x / 360⌋ < 360 := by
  have h1 := Int.floor_le (x / 360)
  have h2 := Int.lt_floor_add_one (x / 360)
  constructor <;> linarith

/-- The longitude is an angle in [0, 360) for every finite time. -/
theorem longitude_range (jme : ℝ) : ∃ L, heliocentricLongitude (fin jme) = fin L ∧ 0 ≤ L ∧ L < 360 := by
  unfold heliocentricLongitude
  simp only [sum_fin, ofNat_eq, fin_mul, fin_pow, fin_add]
  rw [fin_div (by norm_num), degrees_fin, mod_fin (by norm_num)]
  exact ⟨_, rfl, mod360 _⟩

/-- The ecliptic latitude of the earth is below 0.0004 degrees. -/
theorem latitude_bound (jme : ℝ) (h : |jme| ≤ 4) :
    ∃ B, heliocentricLatitude (fin jme) = fin B ∧ |B| < 0.0004 := by
  unfold heliocentricLatitude
  simp only [sum_fin, ofNat_eq, fin_mul, fin_add]
  rw [fin_div (by norm_num), degrees_fin]
  refine ⟨_, rfl, ?_⟩
  have b0 := amp_bound aB0 jme
  have b1 := term_bound (amp_bound aB1 jme) h 1
  push_cast at b0 b1
  rw [pow_one, pow_one] at b1
  have hb : |(ser tabB0 jme + ser tabB1 jme * jme) / 100000000| ≤ 598 / 100000000 := by
    rw [abs_div, abs_of_pos (show (0 : ℝ) < 100000000 by norm_num)]
    have := abs_add_le (ser tabB0 jme) (ser tabB1 jme * jme)
    have : |ser tabB0 jme + ser tabB1 jme * jme| ≤ 598 := by linarith
    exact div_le_div_of_nonneg_right this (by norm_num)
  have hp : 0 < 180 / π := by positivity
  have hp2 : 180 / π < 60 := by
    rw [div_lt_iff₀ Real.pi_pos]
    linarith [Real.pi_gt_three]
  rw [abs_mul, abs_of_pos hp]
  calc _ ≤ 598 / 100000000 * (180 / π) := by gcongr
    _ ≤ 598 / 100000000 * 60 := by gcongr
    _ < 0.0004 := by norm_num

example := latitude_bound 0.02 (by norm_num [abs_le])

/-! ### Nutation -/

/-- Row amplitudes. -/
def nutAmp (f : ℚ × ℚ × ℚ × ℚ → ℚ) : ℚ := (nutationAbcd.map fun r => |f r|).sum

theorem nutation_fold (jce x0 x1 x2 x3 x4 : ℝ) (rows : List ((ℚ × ℚ × ℚ × ℚ) × (ℤ × ℤ × ℤ × ℤ × ℤ))) (s1 s2 : ℝ) :
    ∃ p e, rows.foldl (nutationStep (fin jce) (fin x0) (fin x1) (fin x2) (fin x3) (fin x4)) (fin s1, fin s2) =
        (fin (s1 + p), fin (s2 + e)) ∧
      |p| ≤ (rows.map fun r => |(r.1.1 : ℝ)| + |(r.1.2.1 : ℝ)| * |jce|).sum ∧
      |e| ≤ (rows.map fun r => |(r.1.2.2.1 : ℝ)| + |(r.1.2.2.2 : ℝ)| * |jce|).sum := by
  induction rows generalizing s1 s2 with
  | nil => exact ⟨0, 0, by simp⟩
  | cons r rows ih =>
    set th : ℝ := ((r.2.1 : ℝ) * x0 + (r.2.2.1 : ℝ) * x1 + (r.2.2.2.1 : ℝ) * x2 + (r.2.2.2.2.1 : ℝ) * x3 +
      (r.2.2.2.2.2 : ℝ) * x4) * (π / 180) with hth
    have hstep : nutationStep (fin jce) (fin x0) (fin x1) (fin x2) (fin x3) (fin x4) (fin s1, fin s2) r =
        (fin (s1 + ((r.1.1 : ℝ) + r.1.2.1 * jce) * Real.sin th),
          fin (s2 + ((r.1.2.2.1 : ℝ) + r.1.2.2.2 * jce) * Real.cos th)) := by
      simp [nutationStep, q, hth]
    obtain ⟨p, e, he, hp1, hp2⟩ := ih (s1 + ((r.1.1 : ℝ) + r.1.2.1 * jce) * Real.sin th)
      (s2 + ((r.1.2.2.1 : ℝ) + r.1.2.2.2 * jce) * Real.cos th)
    refine ⟨((r.1.1 : ℝ) + r.1.2.1 * jce) * Real.sin th + p, ((r.1.2.2.1 : ℝ) + r.1.2.2.2 * jce) * Real.cos th + e,
      ?_, ?_, ?_⟩
    · rw [List.foldl_cons, hstep, he, add_assoc, add_assoc]
    · simp only [List.map_cons, List.sum_cons]
      refine (abs_add_le _ _).trans (add_le_add ?_ hp1)
      rw [abs_mul]
      refine (mul_le_of_le_one_right (abs_nonneg _) (Real.abs_sin_le_one _)).trans ?_
      rw [← abs_mul]
      exact abs_add_le _ _
    · simp only [List.map_cons, List.sum_cons]
      refine (abs_add_le _ _).trans (add_le_add ?_ hp2)
      rw [abs_mul]
      refine (mul_le_of_le_one_right (abs_nonneg _) (Real.abs_cos_le_one _)).trans ?_
      rw [← abs_mul]
      exact abs_add_le _ _

private theorem cast_sum (l : List ((ℚ × ℚ × ℚ × ℚ) × (ℤ × ℤ × ℤ × ℤ × ℤ))) (f g : ℚ × ℚ × ℚ × ℚ → ℚ) (c : ℝ) :
    (l.map fun r => |(f r.1 : ℝ)| + |(g r.1 : ℝ)| * c).sum =
      ((l.map fun r => |f r.1|).sum : ℚ) + ((l.map fun r => |g r.1|).sum : ℚ) * c := by
  induction l with
  | nil => simp
  | cons r l ih =>
    simp only [List.map_cons, List.sum_cons, ih]
    rw [Rat.cast_add, Rat.cast_add, Rat.cast_abs, Rat.cast_abs]
    ring

private theorem nA : ((nutationAbcd.zip nutationY).map fun r => |r.1.1|).sum ≤ 194316 := by decide +kernel
private theorem nB : ((nutationAbcd.zip nutationY).map fun r => |r.1.2.1|).sum ≤ 183 := by decide +kernel
private theorem nC : ((nutationAbcd.zip nutationY).map fun r => |r.1.2.2.1|).sum ≤ 100733 := by decide +kernel
private theorem nD : ((nutationAbcd.zip nutationY).map fun r => |r.1.2.2.2|).sum ≤ 15 := by decide +kernel

/-- Nutation in longitude is below 20 arc seconds and in obliquity below 11 arc seconds within 40 centuries. -/
theorem nutation_bound (jce x0 x1 x2 x3 x4 : ℝ) (h : |jce| ≤ 40) :
    ∃ p e, longitudeObliquityNutation (fin jce) (fin x0) (fin x1) (fin x2) (fin x3) (fin x4) = (fin p, fin e) ∧
      |p| < 21 / 3600 ∧ |e| < 11 / 3600 := by
  obtain ⟨p, e, he, hp1, hp2⟩ := nutation_fold jce x0 x1 x2 x3 x4 (nutationAbcd.zip nutationY) 0 0
  refine ⟨p / 36000000, e / 36000000, ?_, ?_, ?_⟩
  · unfold longitudeObliquityNutation
    simp only [zero_eq, he, zero_add, ofNat_eq, ofScientific_eq, fin_mul]
    rw [fin_div (by norm_num), fin_div (by norm_num)]
    norm_num
  · rw [cast_sum _ (fun r => r.1) (fun r => r.2.1)] at hp1
    have a : (((((nutationAbcd.zip nutationY).map fun r => |r.1.1|).sum : ℚ)) : ℝ) ≤ (((194316 : ℚ)) : ℝ) := Rat.cast_le.mpr nA
    have b : (((((nutationAbcd.zip nutationY).map fun r => |r.1.2.1|).sum : ℚ)) : ℝ) ≤ (((183 : ℚ)) : ℝ) := Rat.cast_le.mpr nB
    rw [abs_div, abs_of_pos (show (0 : ℝ) < 36000000 by norm_num), div_lt_iff₀ (by norm_num)]
    have : (((((nutationAbcd.zip nutationY).map fun r => |r.1.2.1|).sum : ℚ)) : ℝ) * |jce| ≤ 183 * 40 := by
      rw [Rat.cast_ofNat] at b
      gcongr
    rw [Rat.cast_ofNat] at a
    norm_num
    linarith
  · rw [cast_sum _ (fun r => r.2.2.1) (fun r => r.2.2.2)] at hp2
    have a : (((((nutationAbcd.zip nutationY).map fun r => |r.1.2.2.1|).sum : ℚ)) : ℝ) ≤ (((100733 : ℚ)) : ℝ) := Rat.cast_le.mpr nC
    have b : (((((nutationAbcd.zip nutationY).map fun r => |r.1.2.2.2|).sum : ℚ)) : ℝ) ≤ (((15 : ℚ)) : ℝ) := Rat.cast_le.mpr nD
    rw [abs_div, abs_of_pos (show (0 : ℝ) < 36000000 by norm_num), div_lt_iff₀ (by norm_num)]
    have : (((((nutationAbcd.zip nutationY).map fun r => |r.1.2.2.2|).sum : ℚ)) : ℝ) * |jce| ≤ 15 * 40 := by
      rw [Rat.cast_ofNat] at b
      gcongr
    rw [Rat.cast_ofNat] at a
    norm_num
    linarith

example := nutation_bound 0.2 297 357 134 93 125 (by norm_num [abs_le])

/-- Every row of amplitudes has its row of multiples: nothing is lost in pairing the two tables. -/
theorem nutation_rows : nutationAbcd.length = 63 ∧ nutationY.length = 63 := by decide +kernel

/-! ### Obliquity -/

private theorem obl_poly (U : ℝ) (hu : |U| ≤ 2 / 5) :
    22.8 * 3600 < 84381.448 - 4680.93 * U - 1.55 * U ^ 2 + 1999.25 * U ^ 3 - 51.38 * U ^ 4 - 249.67 * U ^ 5
      - 39.05 * U ^ 6 + 7.12 * U ^ 7 + 27.87 * U ^ 8 + 5.79 * U ^ 9 + 2.45 * U ^ 10 ∧
    84381.448 - 4680.93 * U - 1.55 * U ^ 2 + 1999.25 * U ^ 3 - 51.38 * U ^ 4 - 249.67 * U ^ 5
      - 39.05 * U ^ 6 + 7.12 * U ^ 7 + 27.87 * U ^ 8 + 5.79 * U ^ 9 + 2.45 * U ^ 10 < 24.1 * 3600 := by
  have b1 : |U ^ 1| ≤ 2/5 := (pow_bound hu 1).trans (by norm_num)
  have b2 : |U ^ 2| ≤ 4/25 := (pow_bound hu 2).trans (by norm_num)
  have b3 : |U ^ 3| ≤ 8/125 := (pow_bound hu 3).trans (by norm_num)
  have b4 : |U ^ 4| ≤ 16/625 := (pow_bound hu 4).trans (by norm_num)
  have b5 : |U ^ 5| ≤ 32/3125 := (pow_bound hu 5).trans (by norm_num)
  have b6 : |U ^ 6| ≤ 1/200 := (pow_bound hu 6).trans (by norm_num)
  have b7 : |U ^ 7| ≤ 1/500 := (pow_bound hu 7).trans (by norm_num)
  have b8 : |U ^ 8| ≤ 1/1000 := (pow_bound hu 8).trans (by norm_num)
  have b9 : |U ^ 9| ≤ 1/2000 := (pow_bound hu 9).trans (by norm_num)
  have b10 : |U ^ 10| ≤ 1/5000 := (pow_bound hu 10).trans (by norm_num)
  rw [pow_one] at b1
  rw [abs_le] at b1 b2 b3 b4 b5 b6 b7 b8 b9 b10
  generalize U ^ 2 = u2 at *
  generalize U ^ 3 = u3 at *
  generalize U ^ 4 = u4 at *
  generalize U ^ 5 = u5 at *
  generalize U ^ 6 = u6 at *
  generalize U ^ 7 = u7 at *
  generalize U ^ 8 = u8 at *
  generalize U ^ 9 = u9 at *
  generalize U ^ 10 = u10 at *
  norm_num
  constructor <;> linarith

/-- The mean obliquity of the ecliptic lies between 22.8 and 24.1 degrees. -/
theorem obliquity_range (jme : ℝ) (h : |jme| ≤ 4) :
    ∃ e0, meanEclipticObliquity (fin jme) = fin e0 ∧ 22.8 * 3600 < e0 ∧ e0 < 24.1 * 3600 := by
  unfold meanEclipticObliquity
  simp only [ofNat_eq, ofScientific_eq, fin_mul]
  rw [fin_div (by norm_num)]
  simp only [fin_mul, fin_pow, fin_add, fin_sub]
  refine ⟨_, rfl, obl_poly _ ?_⟩
  rw [show (1.0 : ℝ) = 1 by norm_num, one_mul, abs_div, abs_of_pos (show (0 : ℝ) < 10 by norm_num),
    div_le_iff₀ (by norm_num)]
  linarith

/-- Witness: the year 2020 is well inside the range. -/
example : ∃ R, spaRadius (fin 1577836800) (fin 70) = fin R ∧ 0.978 < R ∧ R < 1.0222 :=
  spa_distance_range _ _ (by norm_num [abs_le])

end Pvlib.Props.SpaBounds
end
