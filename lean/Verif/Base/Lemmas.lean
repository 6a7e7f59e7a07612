import Verif.Base.Fl

/-! # Helper lemmas about `Fl` (reduction rules, order facts).  No model content. -/

noncomputable section
open scoped Classical
open Real

namespace Fl

@[simp] theorem fin_inj {a b : ℝ} : fin a = fin b ↔ a = b := by
  constructor
  · intro h; injection h
  · rintro rfl; rfl

@[simp] theorem fin_ne_nan (a : ℝ) : (fin a = nan) = False := by simp
@[simp] theorem nan_ne_fin (a : ℝ) : (nan = fin a) = False := by simp
@[simp] theorem fin_ne_pinf (a : ℝ) : (fin a = pinf) = False := by simp
@[simp] theorem fin_ne_ninf (a : ℝ) : (fin a = ninf) = False := by simp

/-! ### Reduction on finite values -/
@[simp] theorem fin_add (a b : ℝ) : fin a + fin b = fin (a + b) := rfl
@[simp] theorem neg_fin (a : ℝ) : -(fin a) = fin (-a) := rfl
@[simp] theorem fin_sub (a b : ℝ) : fin a - fin b = fin (a - b) := by
  show fin (a + -b) = _
  rw [sub_eq_add_neg]
@[simp] theorem fin_mul (a b : ℝ) : fin a * fin b = fin (a * b) := rfl
theorem fin_div' (a b : ℝ) : fin a / fin b = if b = 0 then infSign a else fin (a / b) := rfl
@[simp] theorem fin_div {a b : ℝ} (h : b ≠ 0) : fin a / fin b = fin (a / b) := by
  rw [fin_div', if_neg h]
@[simp] theorem fin_div_pinf (a : ℝ) : fin a / pinf = fin 0 := rfl
@[simp] theorem fin_div_ninf (a : ℝ) : fin a / ninf = fin 0 := rfl
theorem fin_div_zero (a : ℝ) : fin a / fin 0 = infSign a := by
  rw [fin_div', if_pos rfl]
@[simp] theorem infSign_zero : infSign 0 = nan := by simp [infSign]
theorem infSign_pos {a : ℝ} (h : 0 < a) : infSign a = pinf := by simp [infSign, h]
theorem infSign_neg {a : ℝ} (h : a < 0) : infSign a = ninf := by
  simp [infSign, h, not_lt.mpr h.le]
@[simp] theorem pow_zero' (x : Fl) : x ^ (0 : ℕ) = fin 1 := rfl
theorem pow_succ' (x : Fl) (n : ℕ) : x ^ (n + 1) = x ^ n * x := rfl
@[simp] theorem fin_pow (a : ℝ) (n : ℕ) : (fin a) ^ n = fin (a ^ n) := by
  induction n with
  | zero => simp
  | succ n ih => rw [pow_succ', ih, fin_mul, pow_succ]
@[simp] theorem abs_fin (a : ℝ) : Fl.abs (fin a) = fin |a| := rfl
@[simp] theorem sign_fin (a : ℝ) :
    Fl.sign (fin a) = fin (if 0 < a then 1 else if a < 0 then -1 else 0) := rfl

/-! ### NaN propagation -/
@[simp] theorem nan_add (x : Fl) : nan + x = nan := by cases x <;> rfl
@[simp] theorem add_nan (x : Fl) : x + nan = nan := by cases x <;> rfl
@[simp] theorem neg_nan : -nan = nan := rfl
@[simp] theorem nan_sub (x : Fl) : nan - x = nan := by cases x <;> rfl
@[simp] theorem sub_nan (x : Fl) : x - nan = nan := by cases x <;> rfl
@[simp] theorem nan_mul (x : Fl) : nan * x = nan := by cases x <;> rfl
@[simp] theorem mul_nan (x : Fl) : x * nan = nan := by cases x <;> rfl
@[simp] theorem nan_div (x : Fl) : nan / x = nan := by cases x <;> rfl
@[simp] theorem div_nan (x : Fl) : x / nan = nan := by cases x <;> rfl
@[simp] theorem abs_nan : Fl.abs nan = nan := rfl
@[simp] theorem sign_nan : Fl.sign nan = nan := rfl
@[simp] theorem nan_pow_succ (n : ℕ) : nan ^ (n + 1) = nan := by rw [pow_succ']; simp
@[simp] theorem nan_pow_ofNat (n : ℕ) [n.AtLeastTwo] : nan ^ (OfNat.ofNat n : ℕ) = nan := by
  obtain ⟨k, hk⟩ : ∃ k, n = k + 1 := ⟨n - 1, by have := Nat.AtLeastTwo.prop (n := n); omega⟩
  show nan ^ n = nan
  rw [hk, nan_pow_succ]

/-! ### Infinities -/
@[simp] theorem neg_pinf : -pinf = ninf := rfl
@[simp] theorem neg_ninf : -ninf = pinf := rfl
@[simp] theorem fin_add_pinf (a : ℝ) : fin a + pinf = pinf := rfl
@[simp] theorem pinf_add_fin (a : ℝ) : pinf + fin a = pinf := rfl
@[simp] theorem fin_add_ninf (a : ℝ) : fin a + ninf = ninf := rfl
@[simp] theorem ninf_add_fin (a : ℝ) : ninf + fin a = ninf := rfl
@[simp] theorem pinf_add_pinf : pinf + pinf = pinf := rfl
@[simp] theorem ninf_add_ninf : ninf + ninf = ninf := rfl
@[simp] theorem pinf_add_ninf : pinf + ninf = nan := rfl
@[simp] theorem ninf_add_pinf : ninf + pinf = nan := rfl
@[simp] theorem fin_sub_pinf (a : ℝ) : fin a - pinf = ninf := rfl
@[simp] theorem pinf_sub_fin (a : ℝ) : pinf - fin a = pinf := rfl
@[simp] theorem fin_sub_ninf (a : ℝ) : fin a - ninf = pinf := rfl
@[simp] theorem ninf_sub_fin (a : ℝ) : ninf - fin a = ninf := rfl
@[simp] theorem pinf_sub_pinf : pinf - pinf = nan := rfl
@[simp] theorem ninf_sub_ninf : ninf - ninf = nan := rfl
@[simp] theorem pinf_sub_ninf : pinf - ninf = pinf := rfl
@[simp] theorem ninf_sub_pinf : ninf - pinf = ninf := rfl
@[simp] theorem fin_mul_pinf (a : ℝ) : fin a * pinf = infSign a := rfl
@[simp] theorem pinf_mul_fin (a : ℝ) : pinf * fin a = infSign a := rfl
@[simp] theorem fin_mul_ninf (a : ℝ) : fin a * ninf = infSign (-a) := rfl
@[simp] theorem ninf_mul_fin (a : ℝ) : ninf * fin a = infSign (-a) := rfl
@[simp] theorem pinf_mul_pinf : pinf * pinf = pinf := rfl
@[simp] theorem ninf_mul_ninf : ninf * ninf = pinf := rfl
@[simp] theorem pinf_mul_ninf : pinf * ninf = ninf := rfl
@[simp] theorem ninf_mul_pinf : ninf * pinf = ninf := rfl
theorem pinf_div_fin (b : ℝ) : pinf / fin b = if b < 0 then ninf else pinf := rfl
theorem ninf_div_fin (b : ℝ) : ninf / fin b = if b < 0 then pinf else ninf := rfl
@[simp] theorem pinf_div_pinf : pinf / pinf = nan := rfl
@[simp] theorem pinf_div_ninf : pinf / ninf = nan := rfl
@[simp] theorem ninf_div_pinf : ninf / pinf = nan := rfl
@[simp] theorem ninf_div_ninf : ninf / ninf = nan := rfl
@[simp] theorem abs_pinf : Fl.abs pinf = pinf := rfl
@[simp] theorem abs_ninf : Fl.abs ninf = pinf := rfl

/-! ### Comparisons -/
@[simp] theorem fin_lt {a b : ℝ} : (fin a < fin b) = (a < b) := rfl
@[simp] theorem fin_le {a b : ℝ} : (fin a ≤ fin b) = (a ≤ b) := rfl
@[simp] theorem nan_lt (x : Fl) : (nan < x) = False := by cases x <;> rfl
@[simp] theorem lt_nan (x : Fl) : (x < nan) = False := by cases x <;> rfl
@[simp] theorem nan_le (x : Fl) : (nan ≤ x) = False := by cases x <;> rfl
@[simp] theorem le_nan (x : Fl) : (x ≤ nan) = False := by cases x <;> rfl
@[simp] theorem fin_lt_pinf (a : ℝ) : (fin a < pinf) = True := rfl
@[simp] theorem fin_le_pinf (a : ℝ) : (fin a ≤ pinf) = True := rfl
@[simp] theorem pinf_lt (x : Fl) : (pinf < x) = False := by cases x <;> rfl
@[simp] theorem lt_ninf (x : Fl) : (x < ninf) = False := by cases x <;> rfl
@[simp] theorem pinf_le_fin (a : ℝ) : (pinf ≤ fin a) = False := rfl
@[simp] theorem fin_le_ninf (a : ℝ) : (fin a ≤ ninf) = False := rfl
@[simp] theorem ninf_lt_fin (a : ℝ) : (ninf < fin a) = True := rfl
@[simp] theorem ninf_le_fin (a : ℝ) : (ninf ≤ fin a) = True := rfl
@[simp] theorem ninf_lt_pinf : (ninf < pinf) = True := rfl
@[simp] theorem ninf_le_pinf : (ninf ≤ pinf) = True := rfl
@[simp] theorem pinf_le_ninf : (pinf ≤ ninf) = False := rfl
@[simp] theorem ninf_le_ninf : (ninf ≤ ninf) = True := rfl
@[simp] theorem pinf_le_pinf : (pinf ≤ pinf) = True := rfl
@[simp] theorem eqv_fin {a b : ℝ} : eqv (fin a) (fin b) ↔ a = b := by simp [eqv]
@[simp] theorem not_eqv_nan_left (x : Fl) : ¬ eqv nan x := by simp [eqv]
@[simp] theorem not_eqv_nan_right (x : Fl) : ¬ eqv x nan := by
  rintro ⟨h, h'⟩; exact h h'
@[simp] theorem not_eqv_pinf_fin (a : ℝ) : ¬ eqv pinf (fin a) := by simp [eqv]
@[simp] theorem not_eqv_ninf_fin (a : ℝ) : ¬ eqv ninf (fin a) := by simp [eqv]
@[simp] theorem isnan_nan : isnan nan := rfl
@[simp] theorem not_isnan_fin (a : ℝ) : ¬ isnan (fin a) := by simp [isnan]
@[simp] theorem not_isnan_pinf : ¬ isnan pinf := by simp [isnan]
@[simp] theorem not_isnan_ninf : ¬ isnan ninf := by simp [isnan]
@[simp] theorem isfinite_fin (a : ℝ) : isfinite (fin a) := ⟨a, rfl⟩
@[simp] theorem not_isfinite_nan : ¬ isfinite nan := by simp [isfinite]
@[simp] theorem not_isfinite_pinf : ¬ isfinite pinf := by simp [isfinite]
@[simp] theorem not_isfinite_ninf : ¬ isfinite ninf := by simp [isfinite]

/-! ### maximum / minimum / clip / where -/
@[simp] theorem maximum_fin (a b : ℝ) : maximum (fin a) (fin b) = fin (max a b) := rfl
@[simp] theorem minimum_fin (a b : ℝ) : minimum (fin a) (fin b) = fin (min a b) := rfl
@[simp] theorem maximum_nan_left (x : Fl) : maximum nan x = nan := by cases x <;> rfl
@[simp] theorem maximum_nan_right (x : Fl) : maximum x nan = nan := by cases x <;> rfl
@[simp] theorem minimum_nan_left (x : Fl) : minimum nan x = nan := by cases x <;> rfl
@[simp] theorem minimum_nan_right (x : Fl) : minimum x nan = nan := by cases x <;> rfl
@[simp] theorem maximum_pinf_fin (a : ℝ) : maximum pinf (fin a) = pinf := rfl
@[simp] theorem maximum_fin_pinf (a : ℝ) : maximum (fin a) pinf = pinf := rfl
@[simp] theorem maximum_ninf_fin (a : ℝ) : maximum ninf (fin a) = fin a := rfl
@[simp] theorem maximum_fin_ninf (a : ℝ) : maximum (fin a) ninf = fin a := rfl
@[simp] theorem minimum_pinf_fin (a : ℝ) : minimum pinf (fin a) = fin a := rfl
@[simp] theorem minimum_fin_pinf (a : ℝ) : minimum (fin a) pinf = fin a := rfl
@[simp] theorem minimum_ninf_fin (a : ℝ) : minimum ninf (fin a) = ninf := rfl
@[simp] theorem minimum_fin_ninf (a : ℝ) : minimum (fin a) ninf = ninf := rfl
@[simp] theorem maximum_pinf_pinf : maximum pinf pinf = pinf := rfl
@[simp] theorem maximum_ninf_ninf : maximum ninf ninf = ninf := rfl
@[simp] theorem maximum_pinf_ninf : maximum pinf ninf = pinf := rfl
@[simp] theorem maximum_ninf_pinf : maximum ninf pinf = pinf := rfl
@[simp] theorem minimum_pinf_pinf : minimum pinf pinf = pinf := rfl
@[simp] theorem minimum_ninf_ninf : minimum ninf ninf = ninf := rfl
@[simp] theorem minimum_pinf_ninf : minimum pinf ninf = ninf := rfl
@[simp] theorem minimum_ninf_pinf : minimum ninf pinf = ninf := rfl
@[simp] theorem clip_fin (x lo hi : ℝ) :
    clip (fin x) (fin lo) (fin hi) = fin (min (max x lo) hi) := rfl
@[simp] theorem clip_nan (lo hi : Fl) : clip nan lo hi = nan := by simp [clip]
@[simp] theorem npwhere_true (a b : Fl) : npwhere True a b = a := by simp [npwhere]
@[simp] theorem npwhere_false (a b : Fl) : npwhere False a b = b := by simp [npwhere]
theorem npwhere_pos {c : Prop} (h : c) (a b : Fl) : npwhere c a b = a := by simp [npwhere, h]
theorem npwhere_neg {c : Prop} (h : ¬ c) (a b : Fl) : npwhere c a b = b := by simp [npwhere, h]

/-! ### Elementary functions on finite values and NaN -/
@[simp] theorem exp_fin (a : ℝ) : Fl.exp (fin a) = fin (Real.exp a) := rfl
@[simp] theorem exp_nan : Fl.exp nan = nan := rfl
@[simp] theorem exp_ninf : Fl.exp ninf = fin 0 := rfl
@[simp] theorem exp_pinf : Fl.exp pinf = pinf := rfl
theorem sqrt_fin' (a : ℝ) : Fl.sqrt (fin a) = if a < 0 then nan else fin (Real.sqrt a) := rfl
@[simp] theorem sqrt_fin {a : ℝ} (h : 0 ≤ a) : Fl.sqrt (fin a) = fin (Real.sqrt a) := by
  rw [sqrt_fin', if_neg (not_lt.mpr h)]
@[simp] theorem sqrt_nan : Fl.sqrt nan = nan := rfl
theorem log_fin' (a : ℝ) :
    Fl.log (fin a) = if a < 0 then nan else if a = 0 then ninf else fin (Real.log a) := rfl
@[simp] theorem log_fin {a : ℝ} (h : 0 < a) : Fl.log (fin a) = fin (Real.log a) := by
  rw [log_fin', if_neg (not_lt.mpr h.le), if_neg h.ne']
@[simp] theorem log_nan : Fl.log nan = nan := rfl
@[simp] theorem cos_fin (a : ℝ) : Fl.cos (fin a) = fin (Real.cos a) := rfl
@[simp] theorem sin_fin (a : ℝ) : Fl.sin (fin a) = fin (Real.sin a) := rfl
@[simp] theorem cos_nan : Fl.cos nan = nan := rfl
@[simp] theorem sin_nan : Fl.sin nan = nan := rfl
@[simp] theorem tan_nan : Fl.tan nan = nan := rfl
theorem tan_fin' (a : ℝ) :
    Fl.tan (fin a) = if Real.cos a = 0 then pinf else fin (Real.tan a) := rfl
@[simp] theorem tan_fin {a : ℝ} (h : Real.cos a ≠ 0) : Fl.tan (fin a) = fin (Real.tan a) := by
  rw [tan_fin', if_neg h]
theorem arccos_fin' (a : ℝ) :
    Fl.arccos (fin a) = if a < -1 ∨ 1 < a then nan else fin (Real.arccos a) := rfl
theorem arccos_fin {a : ℝ} (h : -1 ≤ a) (h' : a ≤ 1) :
    Fl.arccos (fin a) = fin (Real.arccos a) := by
  rw [arccos_fin', if_neg]; rintro (h1 | h1) <;> linarith
@[simp] theorem arccos_nan : Fl.arccos nan = nan := rfl
theorem arcsin_fin' (a : ℝ) :
    Fl.arcsin (fin a) = if a < -1 ∨ 1 < a then nan else fin (Real.arcsin a) := rfl
theorem arcsin_fin {a : ℝ} (h : -1 ≤ a) (h' : a ≤ 1) :
    Fl.arcsin (fin a) = fin (Real.arcsin a) := by
  rw [arcsin_fin', if_neg]; rintro (h1 | h1) <;> linarith
@[simp] theorem arcsin_nan : Fl.arcsin nan = nan := rfl
@[simp] theorem arctan_fin (a : ℝ) : Fl.arctan (fin a) = fin (Real.arctan a) := rfl
@[simp] theorem arctan_nan : Fl.arctan nan = nan := rfl
@[simp] theorem arctan2_fin (y x : ℝ) :
    Fl.arctan2 (fin y) (fin x) = fin (Complex.arg ⟨x, y⟩) := rfl
@[simp] theorem arctan2_nan_left (x : Fl) : Fl.arctan2 nan x = nan := by cases x <;> rfl
@[simp] theorem arctan2_nan_right (x : Fl) : Fl.arctan2 x nan = nan := by cases x <;> rfl
@[simp] theorem radians_fin (a : ℝ) : radians (fin a) = fin (a * (π / 180)) := rfl
@[simp] theorem degrees_fin (a : ℝ) : degrees (fin a) = fin (a * (180 / π)) := rfl
@[simp] theorem radians_nan : radians nan = nan := rfl
@[simp] theorem degrees_nan : degrees nan = nan := rfl
theorem mod_fin' (a m : ℝ) :
    Fl.mod (fin a) (fin m) = if m = 0 then nan else fin (a - m * ⌊a / m⌋) := rfl
@[simp] theorem mod_fin {m : ℝ} (h : m ≠ 0) (a : ℝ) :
    Fl.mod (fin a) (fin m) = fin (a - m * ⌊a / m⌋) := by rw [mod_fin', if_neg h]
@[simp] theorem mod_nan (m : Fl) : Fl.mod nan m = nan := rfl
@[simp] theorem ceil_fin (a : ℝ) : Fl.ceil (fin a) = fin (⌈a⌉ : ℤ) := rfl
@[simp] theorem floor_fin (a : ℝ) : Fl.floor (fin a) = fin (⌊a⌋ : ℤ) := rfl
@[simp] theorem ceil_nan : Fl.ceil nan = nan := rfl
@[simp] theorem floor_nan : Fl.floor nan = nan := rfl

theorem rpow_fin_pos {a : ℝ} (h : 0 < a) (b : ℝ) : rpow (fin a) (fin b) = fin (a ^ b) := by
  unfold rpow
  by_cases hb : b = 0
  · simp [hb]
  · by_cases ha : a = 1
    · simp [hb, ha]
    · simp [hb, ha, h, h.ne']
theorem rpow_zero_pos {b : ℝ} (h : 0 < b) : rpow (fin 0) (fin b) = fin 0 := by
  simp [rpow, h.ne', h]
theorem rpow_fin_nonneg {a b : ℝ} (h : 0 ≤ a) (hb : 0 < b) :
    rpow (fin a) (fin b) = fin (a ^ b) := by
  rcases h.eq_or_lt with rfl | h
  · rw [rpow_zero_pos hb, Real.zero_rpow hb.ne']
  · exact rpow_fin_pos h b
theorem rpow_neg_base {a b : ℝ} (h : a < 0) (hb : ∀ n : ℤ, (n : ℝ) ≠ b) :
    rpow (fin a) (fin b) = nan := by
  have hb0 : b ≠ 0 := by simpa using (hb 0).symm
  have h1 : a ≠ 1 := by linarith
  have hne : ¬ ∃ n : ℤ, (n : ℝ) = b := by simpa using hb
  simp [rpow, hb0, h1, h.ne, not_lt.mpr h.le, hne]
theorem rpow_nan_left {b : ℝ} (h : b ≠ 0) : rpow nan (fin b) = nan := by simp [rpow, h]

/-! ### Order facts that hold for every value -/

theorem cases_fin (x : Fl) : x = nan ∨ x = ninf ∨ (∃ r, x = fin r) ∨ x = pinf := by
  cases x <;> simp

theorem le_trans' {x y z : Fl} (h : x ≤ y) (h' : y ≤ z) : x ≤ z := by
  cases x <;> cases y <;> cases z <;> simp_all <;> linarith

theorem le_refl' {x : Fl} (h : x ≠ nan) : x ≤ x := by cases x <;> simp_all

theorem minimum_le_left {x y : Fl} (h : minimum x y ≠ nan) : minimum x y ≤ x := by
  cases x <;> cases y <;> simp_all
theorem minimum_le_right {x y : Fl} (h : minimum x y ≠ nan) : minimum x y ≤ y := by
  cases x <;> cases y <;> simp_all
theorem le_maximum_left {x y : Fl} (h : maximum x y ≠ nan) : x ≤ maximum x y := by
  cases x <;> cases y <;> simp_all
theorem le_maximum_right {x y : Fl} (h : maximum x y ≠ nan) : y ≤ maximum x y := by
  cases x <;> cases y <;> simp_all
theorem le_minimum {x y z : Fl} (h : z ≤ x) (h' : z ≤ y) : z ≤ minimum x y := by
  cases x <;> cases y <;> cases z <;> simp_all
theorem maximum_le {x y z : Fl} (h : x ≤ z) (h' : y ≤ z) : maximum x y ≤ z := by
  cases x <;> cases y <;> cases z <;> simp_all
theorem maximum_eq_nan {x y : Fl} : maximum x y = nan ↔ x = nan ∨ y = nan := by
  cases x <;> cases y <;> simp
theorem minimum_eq_nan {x y : Fl} : minimum x y = nan ↔ x = nan ∨ y = nan := by
  cases x <;> cases y <;> simp

/-- Clipping between two finite bounds gives NaN or a real number between them. -/
theorem clip_range (x : Fl) {lo hi : ℝ} (h : lo ≤ hi) :
    clip x (fin lo) (fin hi) = nan ∨ ∃ r, clip x (fin lo) (fin hi) = fin r ∧ lo ≤ r ∧ r ≤ hi := by
  cases x <;> simp [clip, h]
theorem clip_eq_nan (x : Fl) {lo hi : ℝ} : clip x (fin lo) (fin hi) = nan ↔ x = nan := by
  cases x <;> simp [clip]
/-- `clip` leaves an in-range value alone. -/
theorem clip_id {x lo hi : ℝ} (h : lo ≤ x) (h' : x ≤ hi) :
    clip (fin x) (fin lo) (fin hi) = fin x := by simp [h, h']

theorem add_eq_fin {x y : Fl} {r : ℝ} (h : x + y = fin r) :
    ∃ a b, x = fin a ∧ y = fin b ∧ r = a + b := by
  cases x <;> cases y <;> simp_all
theorem infSign_ne_fin (a r : ℝ) : infSign a ≠ fin r := by
  unfold infSign; split_ifs <;> simp
theorem mul_eq_fin {x y : Fl} {r : ℝ} (h : x * y = fin r) :
    ∃ a b, x = fin a ∧ y = fin b ∧ r = a * b := by
  cases x <;> cases y <;> simp_all [infSign_ne_fin]

end Fl
end

/-! ### Algebra of `Fl` addition -/
namespace Fl
theorem add_comm' (x y : Fl) : x + y = y + x := by
  cases x <;> cases y <;> simp [_root_.add_comm]
theorem add_assoc' (x y z : Fl) : x + y + z = x + (y + z) := by
  cases x <;> cases y <;> cases z <;> simp [_root_.add_assoc]
theorem add_right_comm' (x y z : Fl) : x + y + z = x + z + y := by
  rw [add_assoc', add_comm' y z, ← add_assoc']
theorem mul_comm' (x y : Fl) : x * y = y * x := by
  cases x <;> cases y <;> simp [_root_.mul_comm]
theorem zero_add' (x : Fl) : fin 0 + x = x := by cases x <;> simp
theorem add_zero' (x : Fl) : x + fin 0 = x := by cases x <;> simp
end Fl
