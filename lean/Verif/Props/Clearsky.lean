import Verif.Props.TrigValues
import Mathlib.Analysis.Complex.ExponentialBounds
import Verif.Model.Clearsky
import Verif.Props.Spec

/-! # Properties C101-C104: the clear-sky irradiance models of `pvlib.clearsky` -/

noncomputable section
open scoped Classical
open Real
namespace Pvlib.Props.Clearsky
open Fl Pvlib.Clearsky Pvlib.Spec Pvlib.Tools

@[simp] private theorem fmax_fin (a b : ℝ) : fmax (fin a) (fin b) = fin (max a b) := by simp [fmax]
@[simp] private theorem fmin_fin (a b : ℝ) : fmin (fin a) (fin b) = fin (min a b) := by simp [fmin]
@[simp] private theorem fmax_nan_left (b : Fl) : fmax nan b = b := by simp [fmax]
@[simp] private theorem fmax_pinf_fin (b : ℝ) : fmax pinf (fin b) = pinf := by simp [fmax]
@[simp] private theorem fmin_pinf_fin (b : ℝ) : fmin pinf (fin b) = fin b := by simp [fmin]

/-! ### C101: Ineichen-Perez -/

/-- The altitude coefficients of the model: `fh1`, `fh2`, `cg1`, `cg2`. -/
def fh1 (alt : ℝ) : ℝ := Real.exp (-alt / 8000)
def fh2 (alt : ℝ) : ℝ := Real.exp (-alt / 1250)
def cg1 (alt : ℝ) : ℝ := 5.09e-05 * alt + 0.868
def cg2 (alt : ℝ) : ℝ := 3.92e-05 * alt + 0.0387

/-- Ineichen and Perez' clear-sky global horizontal irradiance, as published: `cg1 I0 cos z exp(-cg2 AM (fh1 + fh2 (TL-1)))`, times
`exp(0.01 AM^1.8)` with Perez' enhancement. -/
def ineichenGhi (c am tl alt I0 : ℝ) (perez : Bool) : ℝ :=
  cg1 alt * I0 * c * (Real.exp (-(cg2 alt) * am * (fh1 alt + fh2 alt * (tl - 1))) *
    if perez then Real.exp (0.01 * am ^ (1.8 : ℝ)) else 1)

/-- The beam formula `I0 b exp(-0.09 AM (TL-1))`. -/
def ineichenBeam (am tl alt I0 : ℝ) : ℝ := I0 * ((0.664 + 0.163 / fh1 alt) * Real.exp (-0.09 * am * (tl - 1)))

/-- The largest share of the global irradiance that may be beam. -/
def beamShare (tl alt : ℝ) : ℝ := 1 - (0.1 - 0.2 * Real.exp (-tl)) / (0.1 + 0.882 / fh1 alt)

private theorem fh1_pos (alt : ℝ) : 0 < fh1 alt := Real.exp_pos _
private theorem fh2_pos (alt : ℝ) : 0 < fh2 alt := Real.exp_pos _
private theorem den_pos (alt : ℝ) : (0 : ℝ) < 0.1 + 0.882 / fh1 alt := by have := fh1_pos alt; positivity
private theorem den_gt (alt : ℝ) : (0.1 : ℝ) < 0.1 + 0.882 / fh1 alt := by
  have := fh1_pos alt; have : 0 < 0.882 / fh1 alt := by positivity
  linarith

private theorem beamShare_pos (tl alt : ℝ) : 0 < beamShare tl alt := by
  unfold beamShare
  rw [sub_pos, div_lt_one (den_pos alt)]
  have := den_gt alt; have := Real.exp_pos (-tl); linarith

theorem ineichen_day {z am tl alt I0 : ℝ} {perez : Bool} (hc : 0 < cosDeg z) (ht : tl ≠ 0) (ha : perez = true → 0 ≤ am) :
    ineichen (fin z) (fin am) (fin tl) (fin alt) (fin I0) perez =
      (let g := ineichenGhi (cosDeg z) am tl alt I0 perez
       let n := min (ineichenBeam am tl alt I0) (g * min (beamShare tl alt / cosDeg z) 1e20)
       ⟨fin g, fin n, fin (g - n * cosDeg z)⟩) := by
  have h8 : (8000 : ℝ) ≠ 0 := by norm_num
  have h1 : (1250 : ℝ) ≠ 0 := by norm_num
  have hf := (Real.exp_pos (-alt / 8000)).ne'
  have hd := (den_pos alt).ne'; unfold fh1 at hd
  have hm : max (Real.cos (z * (π / 180))) 0 = cosDeg z := max_eq_left hc.le
  have hb : 0 ≤ (0.664 + 0.163 / Real.exp (-alt / 8000)) * Real.exp (-0.09 * am * (tl - 1)) := by positivity
  have hs : 0 ≤ beamShare tl alt / cosDeg z := div_nonneg (beamShare_pos tl alt).le hc.le
  unfold beamShare fh1 at hs
  cases perez with
  | false =>
    have he : 0 ≤ Real.exp (-(3.92e-05 * alt + 0.0387) * am * (Real.exp (-alt / 8000) + Real.exp (-alt / 1250) * (tl - 1))) :=
      (Real.exp_pos _).le
    simp only [ineichen, cosd, radians_fin, cos_fin, zero_eq, one_eq, ofNat_eq, maximum_fin, minimum_fin, neg_fin, fin_div h8,
      fin_div h1, exp_fin, fin_add, fin_sub, fin_mul, hm, fin_div ht, fmax_fin, max_eq_left he, fin_div hf, fin_div hd,
      fin_div hc.ne', max_eq_left hb, max_eq_left hs, fmin_fin, Bool.false_eq_true, if_false]
    simp only [ineichenGhi, ineichenBeam, beamShare, fh1, fh2, cg1, cg2, Bool.false_eq_true, if_false, mul_one,
      mul_div_cancel_right₀ _ ht]
  | true =>
    have h18 : rpow (fin am) (fin 1.8) = fin (am ^ (1.8 : ℝ)) := rpow_fin_nonneg (ha rfl) (by norm_num)
    have he : 0 ≤ Real.exp (-(3.92e-05 * alt + 0.0387) * am * (Real.exp (-alt / 8000) + Real.exp (-alt / 1250) * (tl - 1))) *
      Real.exp (0.01 * am ^ (1.8 : ℝ)) := by positivity
    simp only [ineichen, cosd, radians_fin, cos_fin, zero_eq, one_eq, ofNat_eq, maximum_fin, minimum_fin, neg_fin, fin_div h8,
      fin_div h1, exp_fin, fin_add, fin_sub, fin_mul, hm, fin_div ht, fmax_fin, max_eq_left he, fin_div hf, fin_div hd, h18,
      fin_div hc.ne', max_eq_left hb, max_eq_left hs, fmin_fin, if_true]
    simp only [ineichenGhi, ineichenBeam, beamShare, fh1, fh2, cg1, cg2, if_true, 
      mul_div_cancel_right₀ _ ht]

/-- **C101**: in daylight the model is the published one: the global irradiance is the published expression, the beam irradiance the
smaller of the published beam expression and the largest share of the global one, and the diffuse irradiance the remainder. -/
theorem ineichen_formula {z am tl alt I0 : ℝ} {perez : Bool} (hz : 0 < cosDeg z) (hc : 1e-10 ≤ cosDeg z) (hs : beamShare tl alt ≤ 1e10)
    (ht : tl ≠ 0) (ha : perez = true → 0 ≤ am) :
    ineichen (fin z) (fin am) (fin tl) (fin alt) (fin I0) perez =
      (let g := ineichenGhi (cosDeg z) am tl alt I0 perez
       let n := min (ineichenBeam am tl alt I0) (g * (beamShare tl alt / cosDeg z))
       ⟨fin g, fin n, fin (g - n * cosDeg z)⟩) := by
  rw [ineichen_day hz ht ha]
  have : beamShare tl alt / cosDeg z ≤ 1e20 := by
    rw [div_le_iff₀ hz]; norm_num at hs hc ⊢; nlinarith
  rw [min_eq_left this]

example := ineichen_formula (z := 60) (am := 2) (tl := 3) (alt := 100) (I0 := 1364) (perez := true) (by rw [cosDeg_at60]; norm_num)
  (by rw [cosDeg_at60]; norm_num)
  (by
    have h : Real.exp (-3 : ℝ) ≤ 1 / 4 := by
      rw [Real.exp_neg, inv_eq_one_div]
      exact one_div_le_one_div_of_le (by norm_num) (by linarith [Real.add_one_le_exp (3:ℝ)])
    have h0 : 0 < fh1 100 := Real.exp_pos _
    have : 0 ≤ (0.1 - 0.2 * Real.exp (-3)) / (0.1 + 0.882 / fh1 100) := div_nonneg (by linarith) (by positivity)
    unfold beamShare
    linarith)
  (by norm_num) (fun _ => by norm_num)

private theorem fmax_of_nan_or_fin {x : Fl} (h : x = nan ∨ ∃ a : ℝ, x = fin a) : ∃ y : ℝ, 0 ≤ y ∧ fmax x (fin 0) = fin y := by
  rcases h with rfl | ⟨a, rfl⟩
  · exact ⟨0, le_rfl, by simp⟩
  · exact ⟨max a 0, le_max_right _ _, by simp⟩

private theorem rpow_nan_or_fin {x : Fl} (h : x = nan ∨ ∃ a : ℝ, x = fin a) : rpow x (fin 1.8) = nan ∨ ∃ a : ℝ, rpow x (fin 1.8) = fin a := by
  rcases h with rfl | ⟨a, rfl⟩
  · exact Or.inl (rpow_nan_left (by norm_num))
  · by_cases h0 : 0 ≤ a
    · exact Or.inr ⟨_, rpow_fin_nonneg h0 (by norm_num)⟩
    · left
      apply rpow_neg_base (not_le.mp h0)
      intro n hn
      have : (n : ℝ) * 5 = 9 := by rw [hn]; norm_num
      have : n * 5 = 9 := by exact_mod_cast this
      omega

/-- The transmission factors are NaN or finite when the air mass is. -/
private theorem factors {am : Fl} (h : am = nan ∨ ∃ a : ℝ, am = fin a) (k q : ℝ) (perez : Bool) :
    (Fl.exp (fin k * am * fin q) = nan ∨ ∃ a : ℝ, Fl.exp (fin k * am * fin q) = fin a) ∧
    ((if perez then Fl.exp (fin k * am * fin q) * Fl.exp (fin 0.01 * rpow am (fin 1.8)) else Fl.exp (fin k * am * fin q)) = nan ∨
      ∃ a : ℝ, (if perez then Fl.exp (fin k * am * fin q) * Fl.exp (fin 0.01 * rpow am (fin 1.8)) else Fl.exp (fin k * am * fin q))
        = fin a) := by
  have h1 : Fl.exp (fin k * am * fin q) = nan ∨ ∃ a : ℝ, Fl.exp (fin k * am * fin q) = fin a := by
    rcases h with rfl | ⟨a, rfl⟩
    · simp
    · right; simp
  refine ⟨h1, ?_⟩
  cases perez with
  | false => simpa using h1
  | true =>
    simp only [if_true]
    rcases rpow_nan_or_fin h with hr | ⟨r, hr⟩ <;> rw [hr]
    · left; simp
    · rcases h1 with h1 | ⟨b, h1⟩ <;> rw [h1]
      · left; simp
      · right; simp

/-- **C101**: at night (the cosine of the apparent zenith is not positive) all three components are exactly zero, although the air
mass is NaN there; for every turbidity but zero, every altitude and every extraterrestrial irradiance. -/
theorem ineichen_night {z tl alt I0 : ℝ} {am : Fl} {perez : Bool} (hc : cosDeg z ≤ 0) (ht : tl ≠ 0)
    (ha : am = nan ∨ ∃ a : ℝ, am = fin a) (hI : 0 ≤ I0) :
    ineichen (fin z) am (fin tl) (fin alt) (fin I0) perez = ⟨0, 0, 0⟩ := by
  have h8 : (8000 : ℝ) ≠ 0 := by norm_num
  have h1 : (1250 : ℝ) ≠ 0 := by norm_num
  have hf := (Real.exp_pos (-alt / 8000)).ne'
  have hd := (den_pos alt).ne'; unfold fh1 at hd
  have hm : max (Real.cos (z * (π / 180))) 0 = 0 := max_eq_right hc
  have hs := beamShare_pos tl alt
  unfold beamShare fh1 at hs
  obtain ⟨y, _, hy⟩ := fmax_of_nan_or_fin (factors ha (-(3.92e-05 * alt + 0.0387))
    (Real.exp (-alt / 8000) + Real.exp (-alt / 1250) * (tl - 1)) perez).2
  have hb : ∃ w : ℝ, 0 ≤ w ∧ fmax (fin (0.664 + 0.163 / Real.exp (-alt / 8000)) * Fl.exp (fin (-0.09) * am * fin (tl - 1))) (fin 0)
      = fin w := by
    apply fmax_of_nan_or_fin
    rcases (factors ha (-0.09) (tl - 1) false).1 with h | ⟨b, h⟩ <;> rw [h]
    · left; simp
    · right; simp
  obtain ⟨w, hw, hb⟩ := hb
  simp only [ineichen, cosd, radians_fin, cos_fin, zero_eq, one_eq, ofNat_eq, maximum_fin, minimum_fin, neg_fin, fin_div h8,
      fin_div h1, exp_fin, fin_add, fin_sub, fin_mul, hm, fin_div ht, fin_div hf, fin_div hd, hb, hy, fin_div_zero, infSign_pos hs,
      fmax_pinf_fin, fmin_pinf_fin]
  have hmin : min (I0 * w) 0 = 0 := min_eq_right (mul_nonneg hI hw)
  simp [hmin]

example := ineichen_night (z := 120) (tl := 3) (alt := 100) (I0 := 1364) (am := nan) (perez := false) (by rw [cosDeg_at120]; norm_num)
  (by norm_num) (.inl rfl) (by norm_num)

/-- **C101**: an undefined (NaN) air mass gives zeros at every zenith; NaN turbidity, zenith, altitude or extraterrestrial irradiance
gives NaN in every component: NaNs other than that of the air mass are never turned into a number. -/
theorem ineichen_nan (z tl alt I0 am : Fl) (perez : Bool) :
    (∀ z tl alt I0 : ℝ, tl ≠ 0 → 0 ≤ I0 → ineichen (fin z) nan (fin tl) (fin alt) (fin I0) perez = ⟨0, 0, 0⟩) ∧
    ineichen z am nan alt I0 perez = ⟨nan, nan, nan⟩ ∧
    ineichen nan am tl alt I0 perez = ⟨nan, nan, nan⟩ ∧
    ineichen z am tl nan I0 perez = ⟨nan, nan, nan⟩ ∧
    ineichen z am tl alt nan perez = ⟨nan, nan, nan⟩ := by
  refine ⟨?_, ?_, ?_, ?_, ?_⟩
  · intro z tl alt I0 ht hI
    by_cases hc : 0 < cosDeg z
    · have h8 : (8000 : ℝ) ≠ 0 := by norm_num
      have h1 : (1250 : ℝ) ≠ 0 := by norm_num
      have hf := (Real.exp_pos (-alt / 8000)).ne'
      have hd := (den_pos alt).ne'; unfold fh1 at hd
      have hm : max (Real.cos (z * (π / 180))) 0 = cosDeg z := max_eq_left hc.le
      have hn : (if perez then (nan : Fl) else nan) = nan := by cases perez <;> rfl
      simp only [ineichen, cosd, radians_fin, cos_fin, zero_eq, one_eq, ofNat_eq, maximum_fin, minimum_fin, neg_fin, fin_div h8,
        fin_div h1, exp_fin, fin_add, fin_sub, fin_mul, hm, fin_div ht, fin_div hf, fin_div hd, fin_div hc.ne', mul_nan, nan_mul,
        exp_nan, hn, fmax_nan_left, fmax_fin, fmin_fin]
      simp
    · exact ineichen_night (not_lt.mp hc) ht (Or.inl rfl) hI
  · simp [ineichen]
  · simp [ineichen, cosd]
  · simp [ineichen]
  · simp [ineichen]

/-- Components of the day result. -/
private theorem comp {z am tl alt I0 : ℝ} {perez : Bool} (hc : 0 < cosDeg z) (ht : tl ≠ 0) (ha : perez = true → 0 ≤ am) :
    ∃ r : ℝ × ℝ × ℝ, r = (ineichenGhi (cosDeg z) am tl alt I0 perez,
      min (ineichenBeam am tl alt I0) (ineichenGhi (cosDeg z) am tl alt I0 perez * min (beamShare tl alt / cosDeg z) 1e20),
      ineichenGhi (cosDeg z) am tl alt I0 perez -
      min (ineichenBeam am tl alt I0) (ineichenGhi (cosDeg z) am tl alt I0 perez * min (beamShare tl alt / cosDeg z) 1e20) *
        cosDeg z) ∧
      ineichen (fin z) (fin am) (fin tl) (fin alt) (fin I0) perez = ⟨fin r.1, fin r.2.1, fin r.2.2⟩ :=
  ⟨_, rfl, ineichen_day hc ht ha⟩

private theorem ghi_nonneg {c am tl alt I0 : ℝ} {perez : Bool} (hc : 0 ≤ c) (hI : 0 ≤ I0) (halt : -17000 ≤ alt) :
    0 ≤ ineichenGhi c am tl alt I0 perez := by
  have h1 : 0 ≤ cg1 alt := by unfold cg1; norm_num; linarith
  unfold ineichenGhi
  split_ifs <;> positivity

private theorem beam_nonneg {am tl alt I0 : ℝ} (hI : 0 ≤ I0) : 0 ≤ ineichenBeam am tl alt I0 := by
  have := fh1_pos alt
  unfold ineichenBeam; positivity

/-- **C101**: for all finite inputs (turbidity not zero, altitude above -17 km, non-negative extraterrestrial irradiance and air mass)
the three components are finite, add up (`ghi = dhi + dni * max(cos z, 0)`), and `ghi` and `dni` are not negative; the diffuse
component is not negative whenever the turbidity is at least `ln 2` (a clean, dry atmosphere has turbidity 1). -/
theorem ineichen_closure {z am tl alt I0 : ℝ} {perez : Bool} (ht : tl ≠ 0) (ha : 0 ≤ am) (hI : 0 ≤ I0) (halt : -17000 ≤ alt) :
    ∃ g n d : ℝ, ineichen (fin z) (fin am) (fin tl) (fin alt) (fin I0) perez = ⟨fin g, fin n, fin d⟩ ∧
      g = d + n * max (cosDeg z) 0 ∧ 0 ≤ g ∧ 0 ≤ n ∧ (Real.log 2 ≤ tl → 0 ≤ d) := by
  by_cases hc : 0 < cosDeg z
  · obtain ⟨⟨g, n, d⟩, hr, h⟩ := comp (alt := alt) (I0 := I0) (perez := perez) hc ht fun _ => ha
    simp only [Prod.mk.injEq] at hr
    obtain ⟨hg, hn, hd⟩ := hr
    have hg0 : 0 ≤ g := hg ▸ ghi_nonneg hc.le hI halt
    have hsh := beamShare_pos tl alt
    rw [← hg] at hn hd
    rw [← hn] at hd
    refine ⟨g, n, d, h, ?_, hg0, ?_, fun hl => ?_⟩
    · rw [max_eq_left hc.le, hd]; ring
    · rw [hn]
      exact le_min (beam_nonneg hI) (mul_nonneg hg0 (le_min (div_nonneg hsh.le hc.le) (by norm_num)))
    · have h1 : beamShare tl alt ≤ 1 := by
        unfold beamShare
        have : Real.exp (-tl) ≤ 1 / 2 := by
          rw [show (1 / 2 : ℝ) = Real.exp (-Real.log 2) by rw [Real.exp_neg, Real.exp_log (by norm_num)]; norm_num]
          exact Real.exp_le_exp.mpr (by linarith)
        have : 0 ≤ (0.1 - 0.2 * Real.exp (-tl)) / (0.1 + 0.882 / fh1 alt) := div_nonneg (by linarith) (den_pos alt).le
        linarith
      have h2 : n * cosDeg z ≤ g := by
        calc n * cosDeg z ≤ g * (beamShare tl alt / cosDeg z) * cosDeg z := by
              apply mul_le_mul_of_nonneg_right _ hc.le
              rw [hn]
              exact (min_le_right _ _).trans (mul_le_mul_of_nonneg_left (min_le_left _ _) hg0)
          _ = g * beamShare tl alt := by field_simp
          _ ≤ g := by nlinarith
      rw [hd]; linarith
  · refine ⟨0, 0, 0, ineichen_night (not_lt.mp hc) ht (Or.inr ⟨_, rfl⟩) hI, by ring, le_rfl, le_rfl, fun _ => le_rfl⟩

example := ineichen_closure (z := 60) (am := 2) (tl := 3) (alt := 100) (I0 := 1364) (perez := true) (by norm_num) (by norm_num) (by norm_num)
  (by norm_num)

/-- The condition on the turbidity is needed: for every positive turbidity below `ln 2` there are inputs with a negative diffuse
component. -/
theorem ineichen_dhi_negative {tl : ℝ} (h0 : 0 < tl) (h : tl < Real.log 2) :
    (ineichen (fin 0) (fin 40) (fin tl) (fin 0) (fin 1364)).dhi < fin 0 := by
  have hc : cosDeg 0 = 1 := by simp [cosDeg]
  rw [ineichen_day (by rw [hc]; norm_num) h0.ne' (by simp), hc]
  have hl : tl < 0.7 := h.trans (by have := Real.log_two_lt_d9; norm_num at this ⊢; linarith)
  have he : 1 / 2 < Real.exp (-tl) := by
    rw [show (1 / 2 : ℝ) = Real.exp (-Real.log 2) by rw [Real.exp_neg, Real.exp_log (by norm_num)]; norm_num]
    exact Real.exp_lt_exp.mpr (by linarith)
  have he1 : Real.exp (-tl) < 1 := Real.exp_lt_one_iff.mpr (by linarith)
  have hs : 1 < beamShare tl 0 ∧ beamShare tl 0 < 1.2 := by
    unfold beamShare fh1; norm_num
    refine ⟨?_, ?_⟩ <;> nlinarith
  have hg : ineichenGhi 1 40 tl 0 1364 false = 1364 * 0.868 * Real.exp (-1.548 * tl) := by
    unfold ineichenGhi cg1 cg2 fh1 fh2; norm_num
  have hb : ineichenBeam 40 tl 0 1364 = 1364 * (0.827 * Real.exp (3.6 * (1 - tl))) := by
    unfold ineichenBeam fh1; norm_num; linarith
  have h1 := Real.add_one_le_exp (3.6 * (1 - tl))
  have h2 : Real.exp (-1.548 * tl) ≤ 1 := Real.exp_le_one_iff.mpr (by norm_num; linarith)
  have h3 := Real.exp_pos (-1.548 * tl)
  dsimp only
  have hm : min (beamShare tl 0) 1e20 = beamShare tl 0 := min_eq_left (by have := hs.2; norm_num at this ⊢; linarith)
  have hr : 1364 * 0.868 * Real.exp (-1.548 * tl) * beamShare tl 0 ≤ 1364 * (0.827 * Real.exp (3.6 * (1 - tl))) := by
    have := mul_le_mul h2 hs.2.le (by linarith [hs.1]) (by norm_num)
    norm_num at this h1 hl ⊢
    nlinarith
  rw [hg, hb, div_one, hm, min_eq_right hr]
  simp only [fin_lt]
  nlinarith [hs.1]

example := ineichen_dhi_negative (tl := 0.5) (by norm_num) (by linarith [Real.log_two_gt_d9])

/-- **C101**: beam and global irradiance never increase with turbidity, and (turbidity at least 1) never with the air mass; both for
the model without Perez' enhancement, whose factor grows with the air mass. -/
theorem ineichen_antitone {z am am' tl tl' alt I0 : ℝ} (ht : 1 ≤ tl) (htt : tl ≤ tl') (ha : 0 ≤ am) (haa : am ≤ am') (hI : 0 ≤ I0)
    (halt : -980 ≤ alt) :
    (ineichen (fin z) (fin am') (fin tl') (fin alt) (fin I0)).ghi ≤ (ineichen (fin z) (fin am) (fin tl) (fin alt) (fin I0)).ghi ∧
    (ineichen (fin z) (fin am') (fin tl') (fin alt) (fin I0)).dni ≤ (ineichen (fin z) (fin am) (fin tl) (fin alt) (fin I0)).dni := by
  by_cases hc : 0 < cosDeg z
  · rw [ineichen_day hc (by linarith) (by simp), ineichen_day hc (by linarith) (by simp)]
    have hg1 : 0 ≤ cg1 alt := by unfold cg1; norm_num; linarith
    have hg2 : 0 ≤ cg2 alt := by unfold cg2; norm_num; linarith
    have hG : ineichenGhi (cosDeg z) am' tl' alt I0 false ≤ ineichenGhi (cosDeg z) am tl alt I0 false := by
      unfold ineichenGhi
      apply mul_le_mul_of_nonneg_left _ (by positivity)
      simp only [Bool.false_eq_true, if_false, mul_one]
      apply Real.exp_le_exp.mpr
      have h1 := fh1_pos alt; have h2 := fh2_pos alt
      have hq : fh1 alt + fh2 alt * (tl - 1) ≤ fh1 alt + fh2 alt * (tl' - 1) := by nlinarith
      have hq0 : 0 ≤ fh1 alt + fh2 alt * (tl - 1) := by nlinarith
      have := mul_le_mul haa hq hq0 (ha.trans haa)
      have := mul_le_mul_of_nonneg_left this hg2
      nlinarith
    have hB : ineichenBeam am' tl' alt I0 ≤ ineichenBeam am tl alt I0 := by
      unfold ineichenBeam
      have := fh1_pos alt
      apply mul_le_mul_of_nonneg_left _ hI
      apply mul_le_mul_of_nonneg_left _ (by positivity)
      apply Real.exp_le_exp.mpr
      have := mul_le_mul haa (by linarith : tl - 1 ≤ tl' - 1) (by linarith) (ha.trans haa)
      nlinarith
    have hS : beamShare tl' alt ≤ beamShare tl alt := by
      unfold beamShare
      have h1 : Real.exp (-tl') ≤ Real.exp (-tl) := Real.exp_le_exp.mpr (by linarith)
      have := div_le_div_of_nonneg_right (by linarith : 0.1 - 0.2 * Real.exp (-tl) ≤ 0.1 - 0.2 * Real.exp (-tl')) (den_pos alt).le
      linarith
    refine ⟨hG, ?_⟩
    simp only [fin_le]
    apply min_le_min hB
    apply mul_le_mul hG
    · exact min_le_min (div_le_div_of_nonneg_right hS hc.le) le_rfl
    · exact le_min (div_nonneg (beamShare_pos _ _).le hc.le) (by norm_num)
    · exact ghi_nonneg hc.le hI (by linarith)
  · have h := not_lt.mp hc
    rw [ineichen_night h (by linarith) (Or.inr ⟨_, rfl⟩) hI, ineichen_night h (by linarith) (Or.inr ⟨_, rfl⟩) hI]
    simp

example := ineichen_antitone (z := 60) (am := 2) (am' := 3) (tl := 2) (tl' := 4) (alt := 100) (I0 := 1364) (by norm_num) (by norm_num) (by norm_num)
  (by norm_num) (by norm_num) (by norm_num)

/-- **C101**: at sea level the beam irradiance is at most 82.7 % of the extraterrestrial irradiance and the global one at most
86.8 % of its projection, for every turbidity of at least 1 and every non-negative air mass. -/
theorem ineichen_upper {z am tl I0 : ℝ} (ht : 1 ≤ tl) (ha : 0 ≤ am) (hI : 0 ≤ I0) :
    (ineichen (fin z) (fin am) (fin tl) 0 (fin I0)).dni ≤ fin (0.827 * I0) ∧
    (ineichen (fin z) (fin am) (fin tl) 0 (fin I0)).ghi ≤ fin (0.868 * I0 * max (cosDeg z) 0) := by
  by_cases hc : 0 < cosDeg z
  · simp only [zero_eq]
    rw [ineichen_day hc (by linarith) (by simp)]
    simp only [fin_le]
    constructor
    · refine (min_le_left _ _).trans ?_
      unfold ineichenBeam fh1
      have : Real.exp (-(9 / 100 * am * (tl - 1))) ≤ 1 := Real.exp_le_one_iff.mpr (by
        have := mul_nonneg ha (by linarith : 0 ≤ tl - 1); nlinarith)
      norm_num [-Real.exp_le_one_iff]
      nlinarith
    · unfold ineichenGhi cg1 cg2 fh1 fh2
      rw [max_eq_left hc.le]
      norm_num
      have : Real.exp (-(387 / 10000 * am * tl)) ≤ 1 := Real.exp_le_one_iff.mpr (by
        have := mul_nonneg ha (by linarith : 0 ≤ tl); nlinarith)
      have h0 : 0 ≤ I0 * cosDeg z := mul_nonneg hI hc.le
      have e : 217 / 250 * I0 * cosDeg z * Real.exp (-(387 / 10000 * am * tl)) =
        217 / 250 * (I0 * cosDeg z) * Real.exp (-(387 / 10000 * am * tl)) := by ring
      rw [e]
      nlinarith
  · have h := not_lt.mp hc
    simp only [zero_eq]
    rw [ineichen_night h (by linarith) (Or.inr ⟨_, rfl⟩) hI, max_eq_right h]
    simp; positivity

example := ineichen_upper (z := 60) (am := 2) (tl := 3) (I0 := 1364) (by norm_num) (by norm_num) (by norm_num)

/-- **C101**: all three components are proportional to the extraterrestrial irradiance. -/
theorem ineichen_scale {z am tl alt I0 k : ℝ} {perez : Bool} (ht : tl ≠ 0) (ha : 0 ≤ am) (hI : 0 ≤ I0) (hk : 0 ≤ k) :
    ∃ g n d : ℝ, ineichen (fin z) (fin am) (fin tl) (fin alt) (fin I0) perez = ⟨fin g, fin n, fin d⟩ ∧
      ineichen (fin z) (fin am) (fin tl) (fin alt) (fin (k * I0)) perez = ⟨fin (k * g), fin (k * n), fin (k * d)⟩ := by
  by_cases hc : 0 < cosDeg z
  · refine ⟨_, _, _, ineichen_day hc ht fun _ => ha, ?_⟩
    rw [ineichen_day hc ht fun _ => ha]
    have e1 : ineichenGhi (cosDeg z) am tl alt (k * I0) perez = k * ineichenGhi (cosDeg z) am tl alt I0 perez := by
      unfold ineichenGhi; ring
    have e2 : ineichenBeam am tl alt (k * I0) = k * ineichenBeam am tl alt I0 := by unfold ineichenBeam; ring
    dsimp only
    rw [e1, e2, mul_assoc, ← mul_min_of_nonneg _ _ hk, mul_assoc, ← mul_sub]
  · have h := not_lt.mp hc
    refine ⟨0, 0, 0, ineichen_night h ht (Or.inr ⟨_, rfl⟩) hI, ?_⟩
    rw [ineichen_night h ht (Or.inr ⟨_, rfl⟩) (mul_nonneg hk hI)]
    simp

example := ineichen_scale (z := 60) (am := 2) (tl := 3) (alt := 100) (I0 := 1364) (k := 1.03) (perez := true) (by norm_num) (by norm_num)
  (by norm_num) (by norm_num)

end Pvlib.Props.Clearsky
end
