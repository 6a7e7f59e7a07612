import Verif.Props.Iam

/-! # Property C59: the `physical` (Fresnel / Snell / Bouguer) incidence angle modifier -/

noncomputable section
open scoped Classical
open Real
namespace Pvlib.Props.IamPhysical
open Fl Pvlib.Iam Pvlib.Tools Pvlib.Spec Pvlib.Props.Iam

/-! ### Evaluation -/

/-- Cosine of the refraction angle (Snell) in a layer of index `m` when the cosine outside is `c`. -/
def refr (m c : ℝ) : ℝ := Real.sqrt (1 - (1 - c ^ 2) / m ^ 2)

private theorem refr_arg {m c : ℝ} (hm : 1 < m) (h0 : 0 ≤ c) : 0 < 1 - (1 - c ^ 2) / m ^ 2 := by
  have : (1 - c ^ 2) / m ^ 2 < 1 := by
    rw [div_lt_one (by positivity)]; nlinarith
  linarith

private theorem refr_pos {m c : ℝ} (hm : 1 < m) (h0 : 0 ≤ c) : 0 < refr m c :=
  Real.sqrt_pos.mpr (refr_arg hm h0)

private theorem refr_sq {m c : ℝ} (hm : 1 < m) (h0 : 0 ≤ c) : refr m c ^ 2 = 1 - (1 - c ^ 2) / m ^ 2 :=
  Real.sq_sqrt (refr_arg hm h0).le

private theorem refr_le_one {m c : ℝ} (hm : 1 < m) (h0 : 0 ≤ c) (h1 : c ≤ 1) : refr m c ≤ 1 := by
  have h := refr_sq hm h0
  have : 0 ≤ (1 - c ^ 2) / m ^ 2 := div_nonneg (by nlinarith) (by positivity)
  have := refr_pos hm h0
  nlinarith

private theorem refr_one (m : ℝ) : refr m 1 = 1 := by simp [refr]

private theorem refr_mono {m c c' : ℝ} (hm : 1 < m) (h0 : 0 ≤ c) (h : c ≤ c') : refr m c ≤ refr m c' := by
  apply Real.sqrt_le_sqrt
  have : (1 - c' ^ 2) / m ^ 2 ≤ (1 - c ^ 2) / m ^ 2 := by
    apply div_le_div_of_nonneg_right _ (by positivity)
    nlinarith
  linarith

/-- Reflectance of an interface: squared relative difference. -/
def refl (x y : ℝ) : ℝ := ((x - y) / (x + y)) ^ 2

private theorem refl_nonneg (x y : ℝ) : 0 ≤ refl x y := sq_nonneg _

private theorem one_sub_refl {x y : ℝ} (h : x + y ≠ 0) : 1 - refl x y = 4 * x * y / (x + y) ^ 2 := by
  unfold refl; field_simp; ring

private theorem refl_le_one {x y : ℝ} (hx : 0 ≤ x) (hy : 0 < y) : refl x y ≤ 1 := by
  have h := one_sub_refl (x := x) (y := y) (by positivity)
  have : 0 ≤ 4 * x * y / (x + y) ^ 2 := by positivity
  linarith

private theorem refl_lt_one {x y : ℝ} (hx : 0 < x) (hy : 0 < y) : refl x y < 1 := by
  have h := one_sub_refl (x := x) (y := y) (by positivity)
  have : 0 < 4 * x * y / (x + y) ^ 2 := by positivity
  linarith

/-- Transmittance factor of the second interface with internal reflections. -/
def second (ρ23 ρ12 : ℝ) : ℝ := (1 - ρ23) / (1 - ρ23 * ρ12)

/-- The real-number value of `physical` for a front cosine `c`; `coated` tells whether the second interface is
computed. -/
def phys (coated : Prop) (n2 n K L c : ℝ) : ℝ :=
  let d := refr n2 c
  let e := refr n c
  let ρs := refl c (n2 * d)
  let ρp := refl d (n2 * c)
  let ρ0 := refl 1 n2
  let dd := if coated then e else d
  let fs := if coated then second (refl (n2 * d) (n * e)) ρs else 1
  let fp := if coated then second (refl (n2 * e) (n * d)) ρp else 1
  let f0 := if coated then second (refl n2 n) ρ0 else 1
  ((1 - ρs) * fs * Real.exp (-K * L / dd) + (1 - ρp) * fp * Real.exp (-K * L / dd)) / 2 /
    ((1 - ρ0) * f0 * Real.exp (-K * L))

private theorem fin_refl {x y : ℝ} (h : x + y ≠ 0) : ((fin x - fin y) / (fin x + fin y)) ^ 2 = fin (refl x y) := by
  simp only [fin_sub, fin_add, fin_div h, fin_pow, refl]

private theorem fin_second {a b : ℝ} (h : 1 - a * b ≠ 0) :
    fin (1 - a) / fin (1 - a * b) = fin (second a b) := by
  simp only [fin_div h, second]

private theorem phys_eval {a n K L n2 : ℝ} {n_ar : Option Fl} (hn : 1 < n) (hn2 : 1 < n2)
    (h2 : physicalN2 (fin n) n_ar = fin n2) :
    ∃ v, v = phys (¬ isclose (fin n) (fin n2)) n2 n K L (front a) ∧
      physical (fin a) (fin n) (fin K) (fin L) n_ar =
        (if isclose (fin n2) 1 then npwhere (90 ≤ fin a) 0 (fin v) else fin v) := by
  refine ⟨_, rfl, ?_⟩
  have hc0 : 0 ≤ front a := le_max_left _ _
  have hc1 : front a ≤ 1 := max_le zero_le_one (Real.cos_le_one _)
  set c := front a with hc
  set d := refr n2 c with hd
  set e := refr n c with he
  have hdp : 0 < d := refr_pos hn2 hc0
  have hep : 0 < e := refr_pos hn hc0
  have hn0 : n ≠ 0 := by positivity
  have hn20 : n2 ≠ 0 := by positivity
  have e1 : maximum 0 (cosd (fin a)) = fin c := by simp [hc, front]
  have hs : 0 ≤ 1 - c ^ 2 := by nlinarith
  have e2 : Fl.sqrt (fin 1 - fin c ^ 2) = fin (Real.sqrt (1 - c ^ 2)) := by
    simp only [fin_pow, fin_sub, sqrt_fin hs]
  have hsq : Real.sqrt (1 - c ^ 2) ^ 2 = 1 - c ^ 2 := Real.sq_sqrt hs
  have e3 : fin 1 / fin n2 * fin (Real.sqrt (1 - c ^ 2)) = fin (Real.sqrt (1 - c ^ 2) / n2) := by
    simp only [fin_div hn20, fin_mul]; congr 1; ring
  have e4 : Fl.sqrt (fin 1 - fin (Real.sqrt (1 - c ^ 2) / n2) ^ 2) = fin d := by
    have : 1 - (Real.sqrt (1 - c ^ 2) / n2) ^ 2 = 1 - (1 - c ^ 2) / n2 ^ 2 := by rw [div_pow, hsq]
    simp only [fin_pow, fin_sub, this, sqrt_fin (refr_arg hn2 hc0).le]
    rfl
  have e5 : Fl.sqrt (fin 1 - (fin n2 / fin n * fin (Real.sqrt (1 - c ^ 2) / n2)) ^ 2) = fin e := by
    have : 1 - (n2 / n * (Real.sqrt (1 - c ^ 2) / n2)) ^ 2 = 1 - (1 - c ^ 2) / n ^ 2 := by
      rw [show n2 / n * (Real.sqrt (1 - c ^ 2) / n2) = Real.sqrt (1 - c ^ 2) / n by field_simp, div_pow, hsq]
    simp only [fin_div hn0, fin_mul, fin_pow, fin_sub, this, sqrt_fin (refr_arg hn hc0).le]
    rfl
  have r1 : ((fin c - fin (n2 * d)) / (fin c + fin (n2 * d))) ^ 2 = fin (refl c (n2 * d)) :=
    fin_refl (by positivity)
  have r2 : ((fin d - fin (n2 * c)) / (fin d + fin (n2 * c))) ^ 2 = fin (refl d (n2 * c)) :=
    fin_refl (by positivity)
  have r3 : ((fin 1 - fin n2) / (fin 1 + fin n2)) ^ 2 = fin (refl 1 n2) := fin_refl (by positivity)
  have r4 : ((fin (n2 * d) - fin (n * e)) / (fin (n2 * d) + fin (n * e))) ^ 2 = fin (refl (n2 * d) (n * e)) :=
    fin_refl (by positivity)
  have r5 : ((fin (n2 * e) - fin (n * d)) / (fin (n2 * e) + fin (n * d))) ^ 2 = fin (refl (n2 * e) (n * d)) :=
    fin_refl (by positivity)
  have r6 : ((fin n2 - fin n) / (fin n2 + fin n)) ^ 2 = fin (refl n2 n) := fin_refl (by positivity)
  have key : ∀ {x y : ℝ}, 0 ≤ x → x < 1 → 0 ≤ y → y ≤ 1 → (1 - x * y ≠ 0) := by
    intro x y hx hx1 hy hy1; nlinarith
  have b1 : refl c (n2 * d) ≤ 1 := refl_le_one hc0 (by positivity)
  have b2 : refl d (n2 * c) ≤ 1 := by
    have : refl d (n2 * c) = refl (n2 * c) d := by unfold refl; rw [← neg_sub, neg_div, neg_sq, add_comm]
    rw [this]; exact refl_le_one (by positivity) hdp
  have b3 : refl 1 n2 < 1 := refl_lt_one one_pos (by positivity)
  have b4 : refl (n2 * d) (n * e) < 1 := refl_lt_one (by positivity) (by positivity)
  have b5 : refl (n2 * e) (n * d) < 1 := refl_lt_one (by positivity) (by positivity)
  have b6 : refl n2 n < 1 := refl_lt_one (by positivity) (by positivity)
  have s1 := fin_second (key (refl_nonneg (n2 * d) (n * e)) b4 (refl_nonneg c (n2 * d)) b1)
  have s2 := fin_second (key (refl_nonneg (n2 * e) (n * d)) b5 (refl_nonneg d (n2 * c)) b2)
  have s3 := fin_second (key (refl_nonneg n2 n) b6 (refl_nonneg 1 n2) b3.le)
  have p6 : 0 < second (refl n2 n) (refl 1 n2) :=
    div_pos (by linarith) (by nlinarith [refl_nonneg n2 n, refl_nonneg 1 n2])
  have t0 : (1 - refl 1 n2) * Real.exp (-K * L) ≠ 0 := by
    have : 0 < 1 - refl 1 n2 := by linarith
    positivity
  have t0' : (1 - refl 1 n2) * second (refl n2 n) (refl 1 n2) * Real.exp (-K * L) ≠ 0 := by
    have : 0 < 1 - refl 1 n2 := by linarith
    positivity
  unfold physical
  simp only [h2, e1, one_eq, e2, e3, e4, fin_mul, r1, r2, r3, coating, e5, r4, r5, r6]
  by_cases hco : isclose (fin n) (fin n2)
  · simp only [hco, not_true_eq_false, if_false, phys, neg_fin, fin_mul, fin_div hdp.ne', exp_fin, fin_sub, fin_add,
      ofNat_eq, fin_div (two_ne_zero' ℝ), fin_div t0, mul_one]
    rfl
  · simp only [hco, not_false_eq_true, if_true, phys, neg_fin, fin_mul, fin_div hep.ne', exp_fin, fin_sub, s1, s2, s3, fin_add,
      ofNat_eq, fin_div (two_ne_zero' ℝ), fin_div t0']
    rfl

/-! ### Zero behind, one at normal incidence, never negative -/

private theorem phys_zero (co : Prop) {n2 n : ℝ} (K L : ℝ) (hn : 1 < n) (hn2 : 1 < n2) : phys co n2 n K L 0 = 0 := by
  have hd := refr_pos hn2 le_rfl
  have h1 : refl 0 (n2 * refr n2 0) = 1 := by
    unfold refl
    have : n2 * refr n2 0 ≠ 0 := by positivity
    rw [zero_sub, zero_add, neg_div, div_self this]; norm_num
  have h2 : refl (refr n2 0) (n2 * 0) = 1 := by
    unfold refl
    rw [mul_zero, sub_zero, add_zero, div_self hd.ne']; norm_num
  simp only [phys, h1, h2, sub_self, zero_mul, add_zero, zero_div]

private theorem phys_one (co : Prop) {n2 n : ℝ} (K L : ℝ) (hn : 1 < n) (hn2 : 1 < n2) : phys co n2 n K L 1 = 1 := by
  have b3 : refl 1 n2 < 1 := refl_lt_one one_pos (by positivity)
  have b6 : refl n2 n < 1 := refl_lt_one (by positivity) (by positivity)
  have p6 : 0 < second (refl n2 n) (refl 1 n2) :=
    div_pos (by linarith) (by nlinarith [refl_nonneg n2 n, refl_nonneg 1 n2])
  have b3' : 0 < 1 - refl 1 n2 := by linarith
  simp only [phys, refr_one, mul_one]
  by_cases h : co
  · simp only [h, if_true, div_one]
    have : 0 < (1 - refl 1 n2) * second (refl n2 n) (refl 1 n2) * Real.exp (-K * L) := by positivity
    rw [show ∀ x : ℝ, (x + x) / 2 = x by intro x; ring]
    exact div_self this.ne'
  · simp only [h, if_false, div_one, mul_one]
    have : 0 < (1 - refl 1 n2) * Real.exp (-K * L) := by positivity
    rw [show ∀ x : ℝ, (x + x) / 2 = x by intro x; ring]
    exact div_self this.ne'

private theorem phys_nonneg (co : Prop) {n2 n : ℝ} (K L : ℝ) {c : ℝ} (hn : 1 < n) (hn2 : 1 < n2) (hc : 0 ≤ c) :
    0 ≤ phys co n2 n K L c := by
  have hdp := refr_pos hn2 hc
  have hep := refr_pos hn hc
  have b1 : refl c (n2 * refr n2 c) ≤ 1 := refl_le_one hc (by positivity)
  have b2 : refl (refr n2 c) (n2 * c) ≤ 1 := by
    have : refl (refr n2 c) (n2 * c) = refl (n2 * c) (refr n2 c) := by
      unfold refl; rw [← neg_sub, neg_div, neg_sq, add_comm]
    rw [this]; exact refl_le_one (by positivity) hdp
  have b3 : refl 1 n2 < 1 := refl_lt_one one_pos (by positivity)
  have sec : ∀ {x y : ℝ}, 0 ≤ x → x < 1 → 0 ≤ y → y ≤ 1 → 0 ≤ second x y := by
    intro x y hx hx1 hy hy1
    exact div_nonneg (by linarith) (by nlinarith)
  have q1 := sec (refl_nonneg _ _) (refl_lt_one (x := n2 * refr n2 c) (y := n * refr n c) (by positivity) (by positivity))
    (refl_nonneg _ _) b1
  have q2 := sec (refl_nonneg _ _) (refl_lt_one (x := n2 * refr n c) (y := n * refr n2 c) (by positivity) (by positivity))
    (refl_nonneg _ _) b2
  have q3 := sec (refl_nonneg _ _) (refl_lt_one (x := n2) (y := n) (by positivity) (by positivity))
    (refl_nonneg _ _) b3.le
  have b1' := sub_nonneg.mpr b1
  have b2' := sub_nonneg.mpr b2
  have b3' := sub_nonneg.mpr b3.le
  simp only [phys]
  split_ifs <;> positivity

/-! ### The Fresnel sum is a function of the cosine of the deviation angle -/

/-- Cosine of the deviation (incidence minus refraction angle). -/
private def dev (n c : ℝ) : ℝ := c * refr n c + (1 - c ^ 2) / n

private theorem fresnel_algebra {n c d k : ℝ} (hn : 1 < n) (hc : 0 ≤ c) (hd : 0 < d) (hk : 0 < k)
    (hq : n ^ 2 * d ^ 2 = n ^ 2 - 1 + c ^ 2) (hkd : n * k = n * (c * d) + (1 - c ^ 2)) :
    4 * c * (n * d) / (c + n * d) ^ 2 + 4 * d * (n * c) / (d + n * c) ^ 2 =
      4 * n / (n ^ 2 - 1) ^ 2 * ((n ^ 2 + 1) * (k + 1 / k) - n * (k + 1 / k) ^ 2) := by
  have hn0 : 0 < n := by linarith
  have hP : 0 < c + n * d := by positivity
  have hQ : d + n * c = (c + n * d) * k := by
    have : n * (d + n * c) = n * ((c + n * d) * k) := by
      have e : n * ((c + n * d) * k) = (c + n * d) * (n * k) := by ring
      rw [e, hkd]
      linear_combination (-c) * hq
    exact mul_left_cancel₀ hn0.ne' this
  have hM : (n * d - c) * (c + n * d) = n ^ 2 - 1 := by linear_combination hq
  have hM0 : 0 < n ^ 2 - 1 := by nlinarith
  have hD : (n * d - c) ^ 2 = n ^ 2 + 1 - 2 * n * k := by linear_combination hq + 2 * hkd
  have hcd : c * d * (n * d - c) ^ 2 = k * (n ^ 2 + 1) - n * k ^ 2 - n := by
    have h1 : n * (c * d * (n * d - c) ^ 2) = n * (k * (n ^ 2 + 1) - n * k ^ 2 - n) := by
      rw [hD]
      have : n * (c * d) = n * k - (1 - c ^ 2) := by linarith
      have h2 : (1 - c ^ 2) * (n * d - c) ^ 2 = n ^ 2 * (1 - k ^ 2) := by
        have hx : n ^ 2 * k ^ 2 = (n * (c * d) + (1 - c ^ 2)) ^ 2 := by rw [← hkd]; ring
        have : n ^ 2 * (1 - k ^ 2) = n ^ 2 - (n * (c * d) + (1 - c ^ 2)) ^ 2 := by linarith
        rw [this]
        linear_combination hq
      rw [hD] at h2
      have h3 : n * (c * d * (n ^ 2 + 1 - 2 * n * k)) = (n * (c * d)) * (n ^ 2 + 1 - 2 * n * k) := by ring
      rw [h3, this]
      linear_combination -h2
    exact mul_left_cancel₀ hn0.ne' h1
  have hcd' : c * d * (n ^ 2 - 1) ^ 2 = (k * (n ^ 2 + 1) - n * k ^ 2 - n) * (c + n * d) ^ 2 := by
    rw [← hM, ← hcd]; ring
  rw [hQ]
  have e1 : 4 * c * (n * d) / (c + n * d) ^ 2 + 4 * d * (n * c) / ((c + n * d) * k) ^ 2 =
      4 * n * (c * d * (n ^ 2 - 1) ^ 2) * (1 + k ^ 2) / ((c + n * d) ^ 2 * k ^ 2 * (n ^ 2 - 1) ^ 2) := by
    field_simp; ring
  rw [e1, hcd']
  field_simp
  ring


private theorem dev_eq {n c : ℝ} (hn : 1 < n) (hc : 0 ≤ c) :
    2 * n * dev n c = n ^ 2 + 1 - ((n ^ 2 - 1) / (n * refr n c + c)) ^ 2 := by
  have hd := refr_pos hn hc
  have h := refr_sq hn hc
  have hn0 : 0 < n := by linarith
  have hq : n ^ 2 * refr n c ^ 2 = n ^ 2 - 1 + c ^ 2 := by rw [h]; field_simp; ring
  have hM : (n ^ 2 - 1) / (n * refr n c + c) = n * refr n c - c := by
    rw [div_eq_iff (by positivity)]; linear_combination -hq
  rw [hM, dev]
  have : 2 * n * (c * refr n c + (1 - c ^ 2) / n) = 2 * n * (c * refr n c) + 2 * (1 - c ^ 2) := by
    field_simp
  rw [this]
  linear_combination hq

private theorem dev_mono {n c c' : ℝ} (hn : 1 < n) (hc : 0 ≤ c) (h : c ≤ c') : dev n c ≤ dev n c' := by
  have hd := refr_pos hn hc
  have hd' := refr_mono hn hc h
  have hM : 0 < n ^ 2 - 1 := by nlinarith
  have h1 := dev_eq hn hc
  have h2 := dev_eq hn (hc.trans h)
  have hle : (n ^ 2 - 1) / (n * refr n c' + c') ≤ (n ^ 2 - 1) / (n * refr n c + c) := by
    apply div_le_div_of_nonneg_left hM.le (by positivity)
    nlinarith
  have hsq : ((n ^ 2 - 1) / (n * refr n c' + c')) ^ 2 ≤ ((n ^ 2 - 1) / (n * refr n c + c)) ^ 2 := by
    apply pow_le_pow_left₀ _ hle
    have := hd.trans_le hd'
    have : 0 ≤ c' := hc.trans h
    positivity
  have : 2 * n * dev n c ≤ 2 * n * dev n c' := by linarith
  have hn0 : (0 : ℝ) < 2 * n := by linarith
  exact le_of_mul_le_mul_left this hn0

private theorem dev_pos {n c : ℝ} (hn : 1 < n) (hc : 0 ≤ c) (hc1 : c ≤ 1) : 0 < dev n c := by
  have hd := refr_pos hn hc
  unfold dev
  rcases hc.eq_or_lt with h | h
  · subst h; simp; linarith
  · have : 0 ≤ (1 - c ^ 2) / n := div_nonneg (by nlinarith) (by linarith)
    positivity

private theorem dev_le_one {n c : ℝ} (hn : 1 < n) (hc : 0 ≤ c) (hc1 : c ≤ 1) : dev n c ≤ 1 := by
  have h := dev_mono hn hc hc1
  have : dev n 1 = 1 := by simp [dev, refr_one]
  linarith

/-- The sum of the two transmittances grows with the front cosine as long as `n ≤ 2 + √3`. -/
private theorem fresnel_mono {n c c' : ℝ} (hn : 1 < n) (hn' : n ^ 2 + 1 ≤ 4 * n) (hc : 0 ≤ c) (h : c ≤ c')
    (hc' : c' ≤ 1) :
    (1 - refl c (n * refr n c)) + (1 - refl (refr n c) (n * c)) ≤
      (1 - refl c' (n * refr n c')) + (1 - refl (refr n c') (n * c')) := by
  have val : ∀ x, 0 ≤ x → x ≤ 1 → (1 - refl x (n * refr n x)) + (1 - refl (refr n x) (n * x)) =
      4 * n / (n ^ 2 - 1) ^ 2 * ((n ^ 2 + 1) * (dev n x + 1 / dev n x) - n * (dev n x + 1 / dev n x) ^ 2) := by
    intro x hx hx1
    have hd := refr_pos hn hx
    have hn0 : 0 < n := by linarith
    rw [one_sub_refl (by positivity), one_sub_refl (by positivity)]
    apply fresnel_algebra hn hx hd (dev_pos hn hx hx1)
    · rw [refr_sq hn hx]; field_simp; ring
    · unfold dev; field_simp
  rw [val c hc (h.trans hc'), val c' (hc.trans h) hc']
  have hn0 : 0 < n := by linarith
  apply mul_le_mul_of_nonneg_left _ (by positivity)
  have k0 := dev_pos hn hc (h.trans hc')
  have k1 := dev_mono hn hc h
  have k2 := dev_le_one hn (hc.trans h) hc'
  set k := dev n c
  set k' := dev n c'
  have k0' : 0 < k' := k0.trans_le k1
  -- u = k + 1/k is decreasing on (0, 1] and at least 2
  have hu : k' + 1 / k' ≤ k + 1 / k := by
    have : k + 1 / k - (k' + 1 / k') = (k' - k) * (1 - k * k') / (k * k') := by field_simp; ring
    have hkk : 0 ≤ 1 - k * k' := by nlinarith
    have : 0 ≤ k + 1 / k - (k' + 1 / k') := by
      rw [this]; exact div_nonneg (mul_nonneg (by linarith) hkk) (by positivity)
    linarith
  have hu2 : 2 ≤ k' + 1 / k' := by
    have : k' + 1 / k' - 2 = (1 - k') ^ 2 / k' := by field_simp; ring
    have : 0 ≤ k' + 1 / k' - 2 := by rw [this]; positivity
    linarith
  set u := k + 1 / k
  set u' := k' + 1 / k'
  have hx : 0 ≤ (u - u') * (n * (u + u') - (n ^ 2 + 1)) :=
    mul_nonneg (by linarith) (by nlinarith)
  nlinarith [hx]

private theorem phys_mono {n K L c c' : ℝ} (hn : 1 < n) (hn' : n ^ 2 + 1 ≤ 4 * n) (hK : 0 ≤ K) (hL : 0 ≤ L)
    (hc : 0 ≤ c) (h : c ≤ c') (hc' : c' ≤ 1) : phys False n n K L c ≤ phys False n n K L c' := by
  have hf := fresnel_mono hn hn' hc h hc'
  have hd := refr_pos hn hc
  have hd' := refr_mono hn hc h
  have he : Real.exp (-K * L / refr n c) ≤ Real.exp (-K * L / refr n c') := by
    apply Real.exp_le_exp.mpr
    have : K * L / refr n c' ≤ K * L / refr n c := div_le_div_of_nonneg_left (by positivity) hd hd'
    rw [neg_mul, neg_div, neg_div]; linarith
  have hT : 0 ≤ (1 - refl 1 n) * Real.exp (-K * L) := by
    have : refl 1 n < 1 := refl_lt_one one_pos (by linarith)
    have := sub_nonneg.mpr this.le
    positivity
  simp only [phys, if_false, mul_one]
  apply div_le_div_of_nonneg_right _ hT
  apply div_le_div_of_nonneg_right _ (by norm_num)
  rw [← add_mul, ← add_mul]
  apply mul_le_mul hf he (Real.exp_pos _).le
  have b1 : refl c' (n * refr n c') ≤ 1 := refl_le_one (hc.trans h) (by have := hd.trans_le hd'; positivity)
  have b2 : refl (refr n c') (n * c') ≤ 1 := by
    have : refl (refr n c') (n * c') = refl (n * c') (refr n c') := by
      unfold refl; rw [← neg_sub, neg_div, neg_sq, add_comm]
    rw [this]; exact refl_le_one (by have := hc.trans h; positivity) (hd.trans_le hd')
  linarith

/-! ### C59 -/

private theorem isclose_self (n : ℝ) : isclose (fin n) (fin n) := by
  simp only [isclose, isfinite_fin, and_self, if_true, fin_sub, sub_self, abs_fin, abs_zero, fin_mul, fin_add, fin_le]
  positivity

private theorem physical_nan (n K L : Fl) (n_ar : Option Fl) : physical nan n K L n_ar = nan := by
  simp [physical, coating, npwhere]

private theorem ninety {a n2 v : ℝ} (ha : |a| ≤ 180) (hv : 90 ≤ |a| → v = 0) :
    (if isclose (fin n2) 1 then npwhere (90 ≤ fin a) 0 (fin v) else fin v) = fin v := by
  split_ifs
  · simp only [npwhere]
    split_ifs with h
    · rw [hv (le_trans (by simpa using h) (le_abs_self a))]; rfl
    · rfl
  · rfl

private theorem front_behind {a : ℝ} (h : 90 ≤ |a|) (h' : |a| ≤ 180) : front a = 0 := by
  have hp := Real.pi_pos
  have hc : cosDeg |a| ≤ cosDeg 90 := by
    apply Real.cos_le_cos_of_nonneg_of_le_pi
    · positivity
    · nlinarith
    · exact mul_le_mul_of_nonneg_right h (by positivity)
  have h90 : cosDeg 90 = 0 := by
    rw [cosDeg, show (90 : ℝ) * (π / 180) = π / 2 by ring, Real.cos_pi_div_two]
  have hab : cosDeg |a| = cosDeg a := by
    rcases abs_choice a with h | h <;> rw [h]
    simp only [cosDeg, neg_mul, Real.cos_neg]
  rw [h90, hab] at hc
  exact max_eq_left hc

/-- **C59**: without a coating, for a cover index `1 < n ≤ 2 + √3` and non-negative glazing thickness and extinction
coefficient, `physical` is an incidence angle modifier. -/
theorem physical_isIam (n K L : ℝ) (hn : 1 < n) (hn' : n ≤ 2 + Real.sqrt 3) (hK : 0 ≤ K) (hL : 0 ≤ L) :
    IsIam (fun aoi => physical aoi (fin n) (fin K) (fin L)) := by
  have hq : n ^ 2 + 1 ≤ 4 * n := by
    have h3 : Real.sqrt 3 ^ 2 = 3 := Real.sq_sqrt (by norm_num)
    have : 0 ≤ Real.sqrt 3 := Real.sqrt_nonneg _
    have h1 : 1 ≤ Real.sqrt 3 := Real.one_le_sqrt.mpr (by norm_num)
    nlinarith [mul_nonneg (sub_nonneg.mpr hn') (show 0 ≤ n - 2 + Real.sqrt 3 by linarith)]
  have hco : (¬ isclose (fin n) (fin n)) = False := by simp [isclose_self]
  have ev : ∀ a : ℝ, |a| ≤ 180 →
      physical (fin a) (fin n) (fin K) (fin L) = fin (phys False n n K L (front a)) := by
    intro a ha
    obtain ⟨v, hv, h⟩ := phys_eval (a := a) (K := K) (L := L) (n_ar := none) hn hn rfl
    rw [hco] at hv
    rw [h, ninety ha, hv]
    intro h9
    rw [hv, front_behind h9 ha, phys_zero _ K L hn hn]
  apply isIam_of' (fun c => phys False n n K L c)
  · intro c hc d hd hcd
    exact phys_mono hn hq hK hL hc.1 hcd hd.2
  · exact phys_zero _ K L hn hn
  · exact phys_one _ K L hn hn
  · exact ev
  · exact physical_nan _ _ _ _

example := physical_isIam 1.526 4 0.002 (by norm_num) (by nlinarith [Real.sqrt_nonneg 3]) (by norm_num) (by norm_num)

/-- **C59**: with any coating index above 1 as well (and any cover index above 1), `physical` is a non-negative number,
1 at normal incidence, 0 from 90 to 180 degrees, and even. -/
theorem physical_coated (n K L : ℝ) (n_ar : Option ℝ) (hn : 1 < n) (ha : ∀ x ∈ n_ar, 1 < x) :
    let f := fun aoi => physical aoi (fin n) (fin K) (fin L) (n_ar.map fin)
    (∀ a : ℝ, |a| ≤ 180 → ∃ r, f (fin a) = fin r ∧ 0 ≤ r) ∧ f (fin 0) = fin 1 ∧
      (∀ a : ℝ, 90 ≤ |a| → |a| ≤ 180 → f (fin a) = fin 0) ∧
      (∀ a : ℝ, |a| ≤ 180 → f (fin (-a)) = f (fin a)) ∧ f nan = nan := by
  intro f
  obtain ⟨n2, hn2, h2⟩ : ∃ n2 : ℝ, 1 < n2 ∧ physicalN2 (fin n) (n_ar.map fin) = fin n2 := by
    cases n_ar with
    | none => exact ⟨n, hn, rfl⟩
    | some x =>
      simp only [physicalN2, Option.map_some]
      split_ifs
      · exact ⟨n, hn, rfl⟩
      · exact ⟨x, ha x rfl, rfl⟩
  set co := ¬ isclose (fin n) (fin n2)
  have ev : ∀ a : ℝ, |a| ≤ 180 → f (fin a) = fin (phys co n2 n K L (front a)) := by
    intro a ha
    obtain ⟨v, hv, h⟩ := phys_eval (a := a) (K := K) (L := L) hn hn2 h2
    simp only [f]
    rw [h, ninety ha, hv]
    intro h9
    rw [hv, front_behind h9 ha, phys_zero _ K L hn hn2]
  refine ⟨fun a h => ⟨_, ev a h, phys_nonneg _ K L hn hn2 (le_max_left _ _)⟩, ?_, fun a h h' => ?_, fun a h => ?_,
    physical_nan _ _ _ _⟩
  · rw [ev 0 (by simp), show front 0 = 1 by simp [front, cosDeg], phys_one _ K L hn hn2]
  · rw [ev a h', front_behind h h', phys_zero _ K L hn hn2]
  · rw [ev _ (by simpa using h), ev a h]
    congr 2
    simp only [front, cosDeg, neg_mul, Real.cos_neg]

example := physical_coated 1.526 4 0.002 (some 1.2) (by norm_num) (by simp; norm_num)

/-- **C59**: an anti-reflective coating whose index is that of air (to numpy's tolerance) is no coating, and neither is
one whose index equals the cover's. -/
theorem physical_null_coating (aoi n K L : ℝ) (x : ℝ) (hx : |x - 1| ≤ 1e-8 + 1e-5 ∨ x = n) :
    physical (fin aoi) (fin n) (fin K) (fin L) (some (fin x)) = physical (fin aoi) (fin n) (fin K) (fin L) := by
  have : physicalN2 (fin n) (some (fin x)) = fin n := by
    rcases hx with h | h
    · have : isclose (fin x) 1 := by
        simp only [isclose, one_eq, isfinite_fin, and_self, if_true, fin_sub, abs_fin, fin_mul, fin_add, fin_le, abs_one,
          mul_one]
        exact h
      simp only [physicalN2, this, if_true]
    · subst h
      simp only [physicalN2]; split_ifs <;> rfl
  unfold physical
  rw [this]
  rfl

example := physical_null_coating 50 1.526 4 0.002 1.000001 (Or.inl (by norm_num [abs_of_pos]))
example := physical_null_coating 50 1.526 4 0.002 1.526 (Or.inr rfl)

/-- The hypotheses are met by the defaults (`n = 1.526`, `K = 4`, `L = 0.002`, coating 1.2). -/
example : (1 : ℝ) < 1.526 ∧ (1.526 : ℝ) ≤ 2 + Real.sqrt 3 ∧ ∀ x ∈ some (1.2 : ℝ), 1 < x := by
  refine ⟨by norm_num, ?_, by simp; norm_num⟩
  have := Real.sqrt_nonneg 3
  linarith

end Pvlib.Props.IamPhysical
end
