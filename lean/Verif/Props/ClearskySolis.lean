import Mathlib.Analysis.Complex.ExponentialBounds
import Verif.Model.Clearsky
import Verif.Props.Spec

/-! # Properties C102, C103: the Haurwitz and simplified Solis clear-sky models -/

noncomputable section
open scoped Classical
open Real
namespace Pvlib.Props.ClearskySolis
open Fl Pvlib.Clearsky Pvlib.Spec Pvlib.Tools

/-! ### C102: Haurwitz -/

/-- Haurwitz' clear-sky global irradiance for the cosine `c` of the zenith angle. -/
def haurwitzGhi (c : ℝ) : ℝ := if 0 < c then 1098 * c * Real.exp (-0.059 / c) else 0

/-- **C102**: `haurwitz` is the published formula in daylight and 0 when the sun is not above the horizon. -/
theorem haurwitz_formula (z : ℝ) : haurwitz (fin z) = fin (haurwitzGhi (cosDeg z)) := by
  unfold haurwitz haurwitzGhi
  simp only [cosd, radians_fin, cos_fin, zero_eq, fin_lt, ofNat_eq]
  by_cases h : 0 < Real.cos (z * (π / 180))
  · simp [h, fin_div h.ne']
  · simp [h]

private theorem haurwitz_mono {c d : ℝ} (h : c ≤ d) : haurwitzGhi c ≤ haurwitzGhi d := by
  unfold haurwitzGhi
  by_cases hc : 0 < c
  · have hd : 0 < d := hc.trans_le h
    rw [if_pos hc, if_pos hd]
    have : Real.exp (-0.059 / c) ≤ Real.exp (-0.059 / d) := by
      apply Real.exp_le_exp.mpr
      rw [div_le_div_iff₀ hc hd]; norm_num; linarith
    have h0 := Real.exp_pos (-0.059 / c)
    exact mul_le_mul (by linarith) this h0.le (by linarith)
  · rw [if_neg hc]
    split_ifs
    · positivity
    · exact le_rfl

/-- **C102**: the result lies between 0 and the value for overhead sun (about 1035 W/m²), for every zenith angle. -/
theorem haurwitz_range (z : ℝ) : ∃ g : ℝ, haurwitz (fin z) = fin g ∧ 0 ≤ g ∧ g ≤ 1098 * Real.exp (-0.059) ∧ (0 < g ↔ 0 < cosDeg z) := by
  refine ⟨_, haurwitz_formula z, ?_, ?_, ?_⟩
  · unfold haurwitzGhi; split_ifs <;> positivity
  · have := haurwitz_mono (Real.cos_le_one (z * (π / 180)))
    refine this.trans (le_of_eq ?_)
    simp [haurwitzGhi]
  · unfold haurwitzGhi
    by_cases h : 0 < cosDeg z
    · simp only [h, if_true, iff_true]; positivity
    · simp [h]

/-- **C102**: the result never increases with the zenith angle between 0 and 180 degrees. -/
theorem haurwitz_antitone {z z' : ℝ} (h0 : 0 ≤ z) (h : z ≤ z') (h1 : z' ≤ 180) : haurwitz (fin z') ≤ haurwitz (fin z) := by
  rw [haurwitz_formula, haurwitz_formula, fin_le]
  apply haurwitz_mono
  have hp := Real.pi_pos
  apply Real.cos_le_cos_of_nonneg_of_le_pi
  · positivity
  · calc z' * (π / 180) ≤ 180 * (π / 180) := by gcongr
      _ = π := by ring
  · gcongr

example := haurwitz_antitone (z := 30) (z' := 100) (by norm_num) (by norm_num) (by norm_num)

/-- **C102**: a NaN (or infinite) zenith gives 0, not NaN (the array is created with zeros and only filled where the cosine is
positive): the model cannot tell a missing sun position from night. -/
theorem haurwitz_nan : haurwitz nan = 0 ∧ haurwitz pinf = 0 ∧ haurwitz ninf = 0 := by
  have h : ∀ x : Fl, Fl.cos (radians x) = nan → haurwitz x = 0 := by
    intro x hx; simp [haurwitz, cosd, hx]
  have hp : 0 < π / 180 := by have := Real.pi_pos; positivity
  refine ⟨h _ rfl, h _ ?_, h _ ?_⟩
  · simp [radians, infSign_pos hp, Fl.cos]
  · simp [radians, infSign_neg (by linarith : -(π / 180) < 0), Fl.cos]

example : (0 : ℝ) < haurwitzGhi (cosDeg 60) := by
  have : cosDeg 60 = 1 / 2 := by
    rw [cosDeg, show (60 : ℝ) * (π / 180) = π / 3 by ring, Real.cos_pi_div_three]
  rw [this]; unfold haurwitzGhi; norm_num; positivity

/-! ### C103: simplified Solis -/

/-- Sine of the elevation, floored at `1e-30`. -/
def sinElev (e : ℝ) : ℝ := max 1e-30 (sinDeg e)
/-- Precipitable water, floored at 0.2 cm. -/
def water (pw : ℝ) : ℝ := max pw 0.2

/-- The published coefficients as functions of water `w` (cm), aerosol depth `a` and pressure ratio logarithm `l = ln(p/p0)`. -/
def i0pR (I0 w a l : ℝ) : ℝ :=
  I0 * (0.12 * w ^ (0.56 : ℝ) * a ^ 2 + 0.97 * w ^ (0.032 : ℝ) * a + 1.08 * w ^ (0.0051 : ℝ) + 0.071 * l)
def taubR (w a l : ℝ) : ℝ :=
  (1.82 + 0.056 * Real.log w + 0.0071 * Real.log w ^ 2) * a + (0.33 + 0.045 * Real.log w + 0.0096 * Real.log w ^ 2) +
    (0.0089 * w + 0.13) * l
def bR (w a : ℝ) : ℝ := (0.00925 * a ^ 2 + 0.0148 * a - 0.0172) * Real.log w + (-0.7565 * a ^ 2 + 0.5057 * a + 0.4557)
def taugR (w a l : ℝ) : ℝ :=
  (1.24 + 0.047 * Real.log w + 0.0061 * Real.log w ^ 2) * a + (0.27 + 0.043 * Real.log w + 0.0090 * Real.log w ^ 2) +
    (0.0079 * w + 0.1) * l
def gR (w a : ℝ) : ℝ := -0.0147 * Real.log w - 0.3079 * a ^ 2 + 0.2846 * a + 0.3798
/-- Diffuse optical depth: one polynomial set below aerosol depth 0.05, another from there on. -/
def taudR (w a l : ℝ) : ℝ :=
  if a < 0.05 then
    (86 * w - 13800) * a ^ 4 + (-3.11 * w + 79.4) * a ^ 3 + (-0.23 * w + 74.8) * a ^ 2 + (0.092 * w - 8.86) * a +
      (0.0042 * w + 3.12) + -0.83 * (1 + a) ^ (-17.2 : ℝ) * l
  else
    (-0.21 * w + 11.6) * a ^ 4 + (0.27 * w - 20.7) * a ^ 3 + (-0.134 * w + 15.5) * a ^ 2 + (0.0554 * w - 5.71) * a +
      (0.0057 * w + 2.94) + -0.71 * (1 + a) ^ (-15 : ℝ) * l
def dR (a l : ℝ) : ℝ := -0.337 * a ^ 2 + 0.63 * a + 0.116 + 1 / (18 + 152 * a) * l

private theorem sinElev_pos (e : ℝ) : 0 < sinElev e := lt_max_of_lt_left (by norm_num)
private theorem sinElev_le_one (e : ℝ) : sinElev e ≤ 1 := max_le (by norm_num) (Real.sin_le_one _)
private theorem water_pos (pw : ℝ) : 0 < water pw := lt_max_of_lt_right (by norm_num)

/-- **C103**: for all finite inputs with positive pressure and non-negative aerosol depth - day or night - the model returns finite
components, the published expressions `I0' exp(-taub / sin^b e)`, `I0' exp(-taug / sin^g e) sin e` and `I0' exp(-taud / sin^d e)`. -/
theorem solis_formula {e a pw p I0 : ℝ} (ha : 0 ≤ a) (hp : 0 < p) :
    simplifiedSolis (fin e) (fin a) (fin pw) (fin p) (fin I0) =
      (let i0 := i0pR I0 (water pw) a (Real.log (p / 101325))
       ⟨fin (i0 * Real.exp (-taugR (water pw) a (Real.log (p / 101325)) / sinElev e ^ gR (water pw) a) * sinElev e),
        fin (i0 * Real.exp (-taubR (water pw) a (Real.log (p / 101325)) / sinElev e ^ bR (water pw) a)),
        fin (i0 * Real.exp (-taudR (water pw) a (Real.log (p / 101325)) / sinElev e ^ dR a (Real.log (p / 101325))))⟩) := by
  have hw := water_pos pw
  have hse := sinElev_pos e
  have hp0 : (101325 : ℝ) ≠ 0 := by norm_num
  have hpp : 0 < p / 101325 := by positivity
  have hd : (18 + 152 * a) ≠ 0 := by positivity
  have ha1 : 0 < 1 + a := by linarith
  have hW : max pw 0.2 = water pw := rfl
  have hS : max 1e-30 (Real.sin (e * (π / 180))) = sinElev e := rfl
  have hpow : ∀ x : ℝ, rpow (fin (water pw)) (fin x) = fin (water pw ^ x) := fun x => rpow_fin_pos hw x
  have hpow1 : ∀ x : ℝ, rpow (fin (1 + a)) (fin x) = fin ((1 + a) ^ x) := fun x => rpow_fin_pos ha1 x
  have hspow : ∀ x : ℝ, rpow (fin (sinElev e)) (fin x) = fin (sinElev e ^ x) := fun x => rpow_fin_pos hse x
  have hsne : ∀ x : ℝ, sinElev e ^ x ≠ 0 := fun x => (Real.rpow_pos_of_pos hse x).ne'
  have hD : calcD (fin a) (fin p) = fin (dR a (Real.log (p / 101325))) := by
    simp only [calcD, ofNat_eq, one_eq, fin_div hp0, log_fin hpp, fin_mul, fin_add, fin_div hd, fin_pow, dR]
  have hT : calcTaud (fin (water pw)) (fin a) (fin p) = fin (taudR (water pw) a (Real.log (p / 101325))) := by
    unfold calcTaud taudR
    simp only [ofNat_eq, one_eq, fin_div hp0, log_fin hpp, fin_mul, fin_add, fin_sub, hpow1, fin_pow, fin_lt]
    by_cases hl : a < 0.05
    · simp only [hl, if_true, fin_mul, fin_add]
    · simp only [hl, if_false, fin_mul, fin_add]
  simp only [simplifiedSolis, maximum_fin, radians_fin, sin_fin, hW, hS, hD, hT]
  simp only [calcI0p, calcTaub, calcB, calcTaug, calcG, ofNat_eq, one_eq, fin_div hp0, log_fin hpp, log_fin hw, fin_mul, fin_add,
    fin_sub, fin_pow, hpow, hspow, neg_fin, fin_div (hsne _), exp_fin]
  simp only [i0pR, taubR, taugR, gR, bR]

example := solis_formula (e := 30) (a := 0.1) (pw := 1) (p := 101325) (I0 := 1364) (by norm_num) (by norm_num)

/-- **C103**: less than 0.2 cm of precipitable water is treated as 0.2 cm. -/
theorem solis_water_floor {pw : ℝ} (h : pw ≤ 0.2) (e a p I0 : Fl) :
    simplifiedSolis e a (fin pw) p I0 = simplifiedSolis e a (fin 0.2) p I0 := by
  unfold simplifiedSolis
  rw [maximum_fin, maximum_fin, max_eq_right h, max_self]

example := solis_water_floor (pw := 0.1) (by norm_num) (fin 30) (fin 0.1) (fin 101325) (fin 1364)

/-- **C103**: NaN aerosol depth, water, pressure or extraterrestrial irradiance makes every component NaN, whatever the other inputs;
NaN elevation makes the global one NaN. -/
theorem solis_nan (e a pw p I0 : Fl) :
    simplifiedSolis e nan pw p I0 = ⟨nan, nan, nan⟩ ∧ simplifiedSolis e a nan p I0 = ⟨nan, nan, nan⟩ ∧
    simplifiedSolis e a pw nan I0 = ⟨nan, nan, nan⟩ ∧ simplifiedSolis e a pw p nan = ⟨nan, nan, nan⟩ ∧
    (simplifiedSolis nan a pw p I0).ghi = nan := by
  have h1 : rpow nan (fin 0.0051) = nan := rpow_nan_left (by norm_num)
  refine ⟨?_, ?_, ?_, ?_, ?_⟩
  · simp [simplifiedSolis, calcI0p]
  · simp [simplifiedSolis, calcI0p, h1]
  · simp [simplifiedSolis, calcI0p]
  · simp [simplifiedSolis, calcI0p]
  · simp [simplifiedSolis]

/-- **C103**: all components are proportional to the extraterrestrial irradiance. -/
theorem solis_scale {e a pw p I0 k : ℝ} (ha : 0 ≤ a) (hp : 0 < p) :
    ∃ g n d : ℝ, simplifiedSolis (fin e) (fin a) (fin pw) (fin p) (fin I0) = ⟨fin g, fin n, fin d⟩ ∧
      simplifiedSolis (fin e) (fin a) (fin pw) (fin p) (fin (k * I0)) = ⟨fin (k * g), fin (k * n), fin (k * d)⟩ := by
  have ht := solis_formula (e := e) (pw := pw) (I0 := I0) ha hp
  have ht' := solis_formula (e := e) (pw := pw) (I0 := k * I0) ha hp
  have e1 : ∀ w l : ℝ, i0pR (k * I0) w a l = k * i0pR I0 w a l := fun w l => by unfold i0pR; ring
  refine ⟨_, _, _, ht, ?_⟩
  rw [ht']
  simp only [e1, mul_assoc]

/-! In the published range of the model (aerosol depth up to 0.45, water up to 10 cm, altitude up to 7 km, that is pressure of at least
41 kPa) more can be said. -/

private theorem log_p {p : ℝ} (hp : 41000 ≤ p) : -0.91 ≤ Real.log (p / 101325) := by
  rw [Real.le_log_iff_exp_le (by positivity), show (-0.91 : ℝ) = -(0.91) by norm_num, Real.exp_neg]
  have h1 : (1.12 : ℝ) ≤ Real.exp (0.91 / 8) := by
    have := Real.quadratic_le_exp_of_nonneg (x := 0.91 / 8) (by norm_num)
    refine le_trans ?_ this; norm_num
  have h2 : Real.exp 0.91 = Real.exp (0.91 / 8) ^ 8 := by rw [← Real.exp_nat_mul]; norm_num
  have h3 : (1.12 : ℝ) ^ 8 ≤ Real.exp 0.91 := by rw [h2]; gcongr
  have h4 : (2.4713415 : ℝ) ≤ Real.exp 0.91 := le_trans (by norm_num) h3
  calc (Real.exp 0.91)⁻¹ ≤ (2.4713415 : ℝ)⁻¹ := by gcongr
    _ ≤ 41000 / 101325 := by norm_num
    _ ≤ p / 101325 := by gcongr

private theorem log_w {w : ℝ} (h0 : 0.2 ≤ w) (h : w ≤ 10) : -1.7 ≤ Real.log w ∧ Real.log w ≤ 2.4 := by
  have hw : 0 < w := by linarith
  have e1 := Real.exp_one_gt_d9
  constructor
  · rw [Real.le_log_iff_exp_le hw]
    refine le_trans ?_ h0
    rw [show (-1.7 : ℝ) = -(1.7) by norm_num, Real.exp_neg]
    have h1 : (1.5 : ℝ) ≤ Real.exp (1.7 / 4) := by
      have := Real.quadratic_le_exp_of_nonneg (x := 1.7 / 4) (by norm_num)
      refine le_trans ?_ this; norm_num
    have h2 : Real.exp 1.7 = Real.exp (1.7 / 4) ^ 4 := by rw [← Real.exp_nat_mul]; norm_num
    have h3 : (1.5 : ℝ) ^ 4 ≤ Real.exp 1.7 := by rw [h2]; gcongr
    calc (Real.exp 1.7)⁻¹ ≤ ((1.5 : ℝ) ^ 4)⁻¹ := by gcongr
      _ ≤ 0.2 := by norm_num
  · rw [Real.log_le_iff_le_exp hw]
    refine h.trans ?_
    have h1 : (1.3 : ℝ) ≤ Real.exp (2.4 / 9) := by
      have := Real.quadratic_le_exp_of_nonneg (x := 2.4 / 9) (by norm_num)
      refine le_trans ?_ this; norm_num
    have h2 : Real.exp 2.4 = Real.exp (2.4 / 9) ^ 9 := by rw [← Real.exp_nat_mul]; norm_num
    have h3 : (1.3 : ℝ) ^ 9 ≤ Real.exp 2.4 := by rw [h2]; gcongr
    exact le_trans (by norm_num) h3

/-- The published range of the simplified Solis model. -/
structure SolisRange (a pw p : ℝ) : Prop where
  aod : 0 ≤ a ∧ a ≤ 0.45
  pw : pw ≤ 10
  pressure : 41000 ≤ p

example : SolisRange 0.1 1 101325 := ⟨by norm_num, by norm_num, by norm_num⟩

private theorem signs {a pw p I0 : ℝ} (h : SolisRange a pw p) (hI : 0 ≤ I0) :
    0 ≤ i0pR I0 (water pw) a (Real.log (p / 101325)) ∧ 0 ≤ taubR (water pw) a (Real.log (p / 101325)) ∧
    0 ≤ taugR (water pw) a (Real.log (p / 101325)) ∧ 0 ≤ bR (water pw) a ∧ 0 ≤ gR (water pw) a := by
  obtain ⟨⟨ha, ha'⟩, hpw, hp⟩ := h
  have hl := log_p hp
  have hw0 : 0.2 ≤ water pw := le_max_right _ _
  have hw1 : water pw ≤ 10 := max_le hpw (by norm_num)
  obtain ⟨hL, hL'⟩ := log_w hw0 hw1
  set w := water pw with hw
  set l := Real.log (p / 101325)
  set L := Real.log w with hLdef
  have hwp : 0 < w := by linarith
  norm_num at hl hw0 ha' hL hL'
  refine ⟨?_, ?_, ?_, ?_, ?_⟩
  · unfold i0pR
    apply mul_nonneg hI
    have h1 : (0.5 : ℝ) ≤ w ^ (0.0051 : ℝ) := by
      rw [Real.rpow_def_of_pos hwp, ← hLdef]
      have := Real.add_one_le_exp (L * 0.0051)
      norm_num at this ⊢; linarith
    have h2 : 0 ≤ w ^ (0.56 : ℝ) := by positivity
    have h3 : 0 ≤ w ^ (0.032 : ℝ) := by positivity
    have : 0 ≤ 0.12 * w ^ (0.56 : ℝ) * a ^ 2 + 0.97 * w ^ (0.032 : ℝ) * a := by positivity
    norm_num at h1 this ⊢; linarith
  · unfold taubR
    have h1 : 0 ≤ (1.82 + 0.056 * L + 0.0071 * L ^ 2) * a := by
      apply mul_nonneg _ ha; norm_num; nlinarith
    have h2 : 0.277 ≤ 0.33 + 0.045 * L + 0.0096 * L ^ 2 := by norm_num; nlinarith [sq_nonneg (L + 2.34375)]
    have h3 : -(0.91 * (0.0089 * 10 + 0.13)) ≤ (0.0089 * w + 0.13) * l := by norm_num; nlinarith
    norm_num at h1 h2 h3 ⊢; linarith
  · unfold taugR
    have h1 : 0 ≤ (1.24 + 0.047 * L + 0.0061 * L ^ 2) * a := by
      apply mul_nonneg _ ha; norm_num; nlinarith
    have h2 : 0.218 ≤ 0.27 + 0.043 * L + 0.0090 * L ^ 2 := by norm_num; nlinarith [sq_nonneg (L + 2.388)]
    have h3 : -(0.91 * (0.0079 * 10 + 0.1)) ≤ (0.0079 * w + 0.1) * l := by norm_num; nlinarith
    norm_num at h1 h2 h3 ⊢; linarith
  · unfold bR
    have h1 : -0.0172 ≤ 0.00925 * a ^ 2 + 0.0148 * a - 0.0172 := by nlinarith
    have h2 : 0.00925 * a ^ 2 + 0.0148 * a - 0.0172 ≤ 0 := by norm_num; nlinarith
    have h3 : 0.3 ≤ -0.7565 * a ^ 2 + 0.5057 * a + 0.4557 := by norm_num; nlinarith
    norm_num at h1 h2 h3 ⊢; nlinarith
  · unfold gR
    norm_num; nlinarith

/-- **C103**: in the published range all components are non-negative, the beam component never exceeds `I0'` and the global one never
its projection; for every elevation. -/
theorem solis_range {e a pw p I0 : ℝ} (h : SolisRange a pw p) (hI : 0 ≤ I0) :
    ∃ g n d : ℝ, simplifiedSolis (fin e) (fin a) (fin pw) (fin p) (fin I0) = ⟨fin g, fin n, fin d⟩ ∧ 0 ≤ g ∧ 0 ≤ n ∧ 0 ≤ d ∧
      n ≤ i0pR I0 (water pw) a (Real.log (p / 101325)) ∧ g ≤ i0pR I0 (water pw) a (Real.log (p / 101325)) * sinElev e := by
  obtain ⟨hi, htb, htg, hb, hg⟩ := signs h hI
  have e1 := solis_formula (e := e) (pw := pw) (I0 := I0) h.aod.1 (by linarith [h.pressure] : 0 < p)
  have hse := sinElev_pos e
  have hx : ∀ x y : ℝ, 0 ≤ x → Real.exp (-x / sinElev e ^ y) ≤ 1 := by
    intro x y hx0
    apply Real.exp_le_one_iff.mpr
    rw [neg_div]
    have := Real.rpow_pos_of_pos hse y
    have : 0 ≤ x / sinElev e ^ y := by positivity
    linarith
  refine ⟨_, _, _, e1, by positivity, by positivity, by positivity, ?_, ?_⟩
  · exact mul_le_of_le_one_right hi (hx _ _ htb)
  · exact mul_le_mul_of_nonneg_right (mul_le_of_le_one_right hi (hx _ _ htg)) hse.le

example := solis_range (e := 30) (a := 0.1) (pw := 1) (p := 101325) (I0 := 1364) ⟨by norm_num, by norm_num, by norm_num⟩ (by norm_num)

/-- **C103**: in the published range beam and global irradiance never decrease as the sun rises. -/
theorem solis_monotone {e e' a pw p I0 : ℝ} (h : SolisRange a pw p) (hI : 0 ≤ I0) (h0 : -90 ≤ e) (hee : e ≤ e') (h1 : e' ≤ 90) :
    (simplifiedSolis (fin e) (fin a) (fin pw) (fin p) (fin I0)).ghi ≤ (simplifiedSolis (fin e') (fin a) (fin pw) (fin p) (fin I0)).ghi ∧
    (simplifiedSolis (fin e) (fin a) (fin pw) (fin p) (fin I0)).dni ≤
      (simplifiedSolis (fin e') (fin a) (fin pw) (fin p) (fin I0)).dni := by
  obtain ⟨hi, htb, htg, hb, hg⟩ := signs h hI
  have e1 := solis_formula (e := e) (pw := pw) (I0 := I0) h.aod.1 (by linarith [h.pressure] : 0 < p)
  have e2 := solis_formula (e := e') (pw := pw) (I0 := I0) h.aod.1 (by linarith [h.pressure] : 0 < p)
  have hs : sinElev e ≤ sinElev e' := by
    apply max_le_max le_rfl
    have hp := Real.pi_pos
    apply Real.sin_le_sin_of_le_of_le_pi_div_two
    · calc -(π / 2) = (-90) * (π / 180) := by ring
        _ ≤ e * (π / 180) := by gcongr
    · calc e' * (π / 180) ≤ 90 * (π / 180) := by gcongr
        _ = π / 2 := by ring
    · gcongr
  have hse := sinElev_pos e
  have hx : ∀ x y : ℝ, 0 ≤ x → 0 ≤ y → Real.exp (-x / sinElev e ^ y) ≤ Real.exp (-x / sinElev e' ^ y) := by
    intro x y hx0 hy
    apply Real.exp_le_exp.mpr
    rw [neg_div, neg_div, neg_le_neg_iff]
    have h1 := Real.rpow_pos_of_pos hse y
    have h2 := Real.rpow_le_rpow hse.le hs hy
    gcongr
  rw [e1, e2]
  simp only [fin_le]
  constructor
  · have := hx _ _ htg hg
    gcongr
  · have := hx _ _ htb hb
    gcongr

example := solis_monotone (e := 30) (e' := 60) (a := 0.1) (pw := 1) (p := 101325) (I0 := 1364) ⟨by norm_num, by norm_num, by norm_num⟩ (by norm_num)
  (by norm_num) (by norm_num) (by norm_num)

end Pvlib.Props.ClearskySolis
end
