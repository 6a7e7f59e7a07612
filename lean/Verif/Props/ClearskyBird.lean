import Mathlib.Analysis.Complex.ExponentialBounds
import Verif.Model.Clearsky
import Verif.Props.Spec

/-! # Property C104: Bird's clear-sky model -/

noncomputable section
open scoped Classical
open Real
namespace Pvlib.Props.ClearskyBird
open Fl Pvlib.Clearsky Pvlib.Spec Pvlib.Tools

/-! ### The transmittances -/

/-- Rayleigh scattering. -/
def rayleighR (m : ℝ) : ℝ := Real.exp (-0.0903 * m ^ (0.84 : ℝ) * (1 + m - m ^ (1.01 : ℝ)))
/-- Ozone; `x` is ozone thickness times air mass. -/
def ozoneR (x : ℝ) : ℝ :=
  1 - 0.1611 * x * (1 + 139.48 * x) ^ (-0.3034 : ℝ) - 0.002715 * x / (1 + 0.044 * x + 0.0003 * x ^ 2)
/-- Uniformly mixed gases. -/
def gasesR (m : ℝ) : ℝ := Real.exp (-0.0127 * m ^ (0.26 : ℝ))
/-- Water vapour; `x` is precipitable water times air mass. -/
def waterR (x : ℝ) : ℝ := 1 - 2.4959 * x / ((1 + 79.034 * x) ^ (0.6828 : ℝ) + 6.385 * x)
/-- Aerosols of broadband depth `t`. -/
def aerosolR (t m : ℝ) : ℝ := Real.exp (-(t ^ (0.873 : ℝ)) * (1 + t - t ^ (0.7088 : ℝ)) * m ^ (0.9108 : ℝ))
/-- Aerosol absorptance correction: the transmittance of aerosol absorption only. -/
def absorbR (t m : ℝ) : ℝ := 1 - 0.1 * (1 - m + m ^ (1.06 : ℝ)) * (1 - aerosolR t m)

private theorem rayleigh_fin {m : ℝ} (h : 0 ≤ m) : birdRayleigh (fin m) = fin (rayleighR m) := by
  simp only [birdRayleigh, rpow_fin_nonneg h (by norm_num : (0:ℝ) < 0.84), rpow_fin_nonneg h (by norm_num : (0:ℝ) < 1.01), one_eq,
    fin_mul, fin_add, fin_sub, exp_fin, rayleighR]
private theorem ozone_fin {x : ℝ} (h : 0 ≤ x) : birdOzone (fin x) = fin (ozoneR x) := by
  have h1 : 0 < 1 + 139.48 * x := by positivity
  have h2 : 1 + 0.044 * x + 0.0003 * x ^ 2 ≠ 0 := by positivity
  simp only [birdOzone, one_eq, fin_mul, fin_add, fin_sub, rpow_fin_pos h1, fin_pow, fin_div h2, ozoneR]
private theorem gases_fin {m : ℝ} (h : 0 ≤ m) : birdGases (fin m) = fin (gasesR m) := by
  simp only [birdGases, rpow_fin_nonneg h (by norm_num : (0:ℝ) < 0.26), fin_mul, exp_fin, gasesR]
private theorem water_fin {x : ℝ} (h : 0 ≤ x) : birdWater (fin x) = fin (waterR x) := by
  have h1 : 0 < 1 + 79.034 * x := by positivity
  have h2 : (1 + 79.034 * x) ^ (0.6828 : ℝ) + 6.385 * x ≠ 0 := by positivity
  simp only [birdWater, one_eq, fin_mul, fin_add, fin_sub, rpow_fin_pos h1, fin_div h2, waterR]
private theorem aerosol_fin {t m : ℝ} (ht : 0 ≤ t) (h : 0 ≤ m) : birdAerosol (fin t) (fin m) = fin (aerosolR t m) := by
  simp only [birdAerosol, one_eq, fin_mul, fin_add, fin_sub, rpow_fin_nonneg ht (by norm_num : (0:ℝ) < 0.873),
    rpow_fin_nonneg ht (by norm_num : (0:ℝ) < 0.7088), rpow_fin_nonneg h (by norm_num : (0:ℝ) < 0.9108), neg_fin, exp_fin, aerosolR]

/-- `m ^ (1 + q) ≤ k + m` up to an air mass of 29, given a rational bound. -/
private theorem pow_le {m q c : ℝ} (h0 : 0 ≤ m) (h : m ≤ 29) (hq : 0 ≤ q) (hc : (29 : ℝ) ^ q ≤ 1 + c / 29) (hc0 : 1 ≤ c) :
    m ^ (1 + q) ≤ c + m := by
  rcases h0.eq_or_lt with rfl | hm
  · rw [Real.zero_rpow (by linarith)]; linarith
  rw [Real.rpow_add hm, Real.rpow_one]
  by_cases h1 : m ≤ 1
  · have : m ^ q ≤ 1 := Real.rpow_le_one hm.le h1 hq
    nlinarith
  · have h2 : m ^ q ≤ 29 ^ q := Real.rpow_le_rpow hm.le h hq
    have : m * m ^ q ≤ m * (1 + c / 29) := mul_le_mul_of_nonneg_left (h2.trans hc) hm.le
    have : m * (c / 29) ≤ 29 * (c / 29) := mul_le_mul_of_nonneg_right h (by linarith [div_nonneg (by linarith : (0:ℝ) ≤ c) (by norm_num : (0:ℝ) ≤ 29)])
    linarith

private theorem pow29_01 : (29 : ℝ) ^ (0.01 : ℝ) ≤ 1 + 1 / 29 := by
  rw [show (1 + 1 / 29 : ℝ) = ((1 + 1 / 29 : ℝ) ^ (100 : ℝ)) ^ (0.01 : ℝ) by
    rw [← Real.rpow_mul (by norm_num)]; norm_num]
  apply Real.rpow_le_rpow (by norm_num) _ (by norm_num)
  norm_num

private theorem pow29_06 : (29 : ℝ) ^ (0.06 : ℝ) ≤ 1 + 8 / 29 := by
  rw [show (1 + 8 / 29 : ℝ) = ((1 + 8 / 29 : ℝ) ^ (17 : ℝ)) ^ (1 / 17 : ℝ) by
    rw [← Real.rpow_mul (by norm_num)]; norm_num]
  have h : (29 : ℝ) ^ (0.06 : ℝ) ≤ 29 ^ (1.02 / 17 : ℝ) := by norm_num
  refine h.trans ?_
  rw [show (1.02 / 17 : ℝ) = 1.02 * (1 / 17) by norm_num, Real.rpow_mul (by norm_num)]
  apply Real.rpow_le_rpow (by positivity) _ (by norm_num)
  rw [show (1.02 : ℝ) = 1 + 0.02 by norm_num, Real.rpow_add (by norm_num), Real.rpow_one]
  have : (29 : ℝ) ^ (0.02 : ℝ) ≤ 2 := by
    rw [show (2 : ℝ) = ((2 : ℝ) ^ (50 : ℝ)) ^ (0.02 : ℝ) by rw [← Real.rpow_mul (by norm_num)]; norm_num]
    apply Real.rpow_le_rpow (by norm_num) _ (by norm_num)
    norm_num
  refine (mul_le_mul_of_nonneg_left this (by norm_num)).trans ?_
  norm_num

/-- **C104**: up to an air mass of 29 (zenith angle about 89 degrees) each transmittance is a transmittance: positive and at most 1
(ozone: up to an optical mass of 6 atm-cm, 0.3 atm-cm at air mass 20). -/
theorem transmittances {m x y t : ℝ} (h0 : 0 ≤ m) (h : m ≤ 29) (hx : 0 ≤ x) (hx' : x ≤ 6) (hy : 0 ≤ y) (ht : 0 ≤ t) :
    (0 < rayleighR m ∧ rayleighR m ≤ 1) ∧ (0 < ozoneR x ∧ ozoneR x ≤ 1) ∧ (0 < gasesR m ∧ gasesR m ≤ 1) ∧
    (0 < waterR y ∧ waterR y ≤ 1) ∧ (0 < aerosolR t m ∧ aerosolR t m ≤ 1) := by
  refine ⟨⟨Real.exp_pos _, ?_⟩, ⟨?_, ?_⟩, ⟨Real.exp_pos _, ?_⟩, ⟨?_, ?_⟩, ⟨Real.exp_pos _, ?_⟩⟩
  · apply Real.exp_le_one_iff.mpr
    have := pow_le (q := 0.01) h0 h (by norm_num) pow29_01 le_rfl
    rw [show (1 : ℝ) + 0.01 = 1.01 by norm_num] at this
    have h1 : 0 ≤ m ^ (0.84 : ℝ) := by positivity
    have : 0 ≤ m ^ (0.84 : ℝ) * (1 + m - m ^ (1.01 : ℝ)) := mul_nonneg h1 (by linarith)
    norm_num at this ⊢; linarith
  · unfold ozoneR
    have h1 : (1 + 139.48 * x) ^ (-0.3034 : ℝ) ≤ 1 := Real.rpow_le_one_of_one_le_of_nonpos (by norm_num; linarith) (by norm_num)
    have h1' : 0 ≤ (1 + 139.48 * x) ^ (-0.3034 : ℝ) := by positivity
    have h2 : 0.002715 * x / (1 + 0.044 * x + 0.0003 * x ^ 2) ≤ 0.002715 * x := by
      apply div_le_self (by positivity)
      have : 0 ≤ 0.044 * x + 0.0003 * x ^ 2 := by positivity
      linarith
    have h3 : 0.1611 * x * (1 + 139.48 * x) ^ (-0.3034 : ℝ) ≤ 0.1611 * x := mul_le_of_le_one_right (by positivity) h1
    norm_num at h2 h3 ⊢; linarith
  · unfold ozoneR
    have h1' : 0 ≤ 0.1611 * x * (1 + 139.48 * x) ^ (-0.3034 : ℝ) := by positivity
    have h2 : 0 ≤ 0.002715 * x / (1 + 0.044 * x + 0.0003 * x ^ 2) := by positivity
    linarith
  · apply Real.exp_le_one_iff.mpr
    have h1 : 0 ≤ m ^ (0.26 : ℝ) := by positivity
    norm_num at h1 ⊢; linarith
  · unfold waterR
    have h1 : 0 < (1 + 79.034 * y) ^ (0.6828 : ℝ) := by positivity
    rw [sub_pos, div_lt_one (by positivity)]
    norm_num at h1 ⊢; linarith
  · unfold waterR
    have : 0 ≤ 2.4959 * y / ((1 + 79.034 * y) ^ (0.6828 : ℝ) + 6.385 * y) := by positivity
    linarith
  · apply Real.exp_le_one_iff.mpr
    have h1 : t ^ (0.7088 : ℝ) ≤ 1 + t := by
      by_cases h1 : t ≤ 1
      · have := Real.rpow_le_one ht h1 (by norm_num : (0:ℝ) ≤ 0.7088); linarith
      · have := Real.rpow_le_rpow_of_exponent_le (not_le.mp h1).le (by norm_num : (0.7088 : ℝ) ≤ 1)
        rw [Real.rpow_one] at this; linarith
    have h2 : 0 ≤ t ^ (0.873 : ℝ) * (1 + t - t ^ (0.7088 : ℝ)) * m ^ (0.9108 : ℝ) := by
      have : 0 ≤ 1 + t - t ^ (0.7088 : ℝ) := by linarith
      positivity
    linarith

example := transmittances (m := 1.5) (x := 0.45) (y := 2.25) (t := 0.1) (by norm_num) (by norm_num) (by norm_num) (by norm_num) (by norm_num) (by norm_num)

/-- **C104**: the bound on the air mass is needed: beyond an air mass of 30 (near the horizon) the Rayleigh transmittance exceeds 1. -/
theorem rayleigh_exceeds_one {m : ℝ} (h : 30 ≤ m) : 1 < rayleighR m := by
  have hm : 0 < m := by linarith
  apply Real.one_lt_exp_iff.mpr
  have h1 : 0 < m ^ (0.84 : ℝ) := by positivity
  have h2 : 1 + m < m ^ (1.01 : ℝ) := by
    rw [show (1.01 : ℝ) = 1 + 0.01 by norm_num, Real.rpow_add hm, Real.rpow_one]
    have h3 : (1 + 1 / 30 : ℝ) < 30 ^ (0.01 : ℝ) := by
      rw [show (1 + 1 / 30 : ℝ) = ((1 + 1 / 30 : ℝ) ^ (100 : ℝ)) ^ (0.01 : ℝ) by rw [← Real.rpow_mul (by norm_num)]; norm_num]
      apply Real.rpow_lt_rpow (by positivity) _ (by norm_num)
      norm_num
    have h4 : (30 : ℝ) ^ (0.01 : ℝ) ≤ m ^ (0.01 : ℝ) := Real.rpow_le_rpow (by norm_num) h (by norm_num)
    have h5 := h3.trans_le h4
    nlinarith
  have := mul_pos h1 (by linarith : 0 < m ^ (1.01 : ℝ) - (1 + m))
  norm_num at this ⊢; nlinarith

/-! ### The components -/

/-- Bird's direct normal irradiance. -/
def birdDni (am mp oz pw t I0 : ℝ) : ℝ :=
  0.9662 * I0 * aerosolR t am * waterR (am * pw) * gasesR mp * ozoneR (oz * am) * rayleighR mp
/-- Bird's scattered irradiance on the horizontal plane. -/
def birdScattered (c am mp oz pw t I0 asym : ℝ) : ℝ :=
  I0 * c * 0.79 * ozoneR (oz * am) * gasesR mp * waterR (am * pw) * absorbR t am *
    (0.5 * (1 - rayleighR mp) + asym * (1 - aerosolR t am / absorbR t am)) / (1 - am + am ^ (1.02 : ℝ))
/-- The reflectance of the sky seen from the ground. -/
def skyReflectance (am t asym : ℝ) : ℝ := 0.0685 + (1 - asym) * (1 - aerosolR t am / absorbR t am)
/-- Cosine of the zenith angle, 0 from 90 degrees on. -/
def cosUp (z : ℝ) : ℝ := if z < 90 then cosDeg z else 0

private theorem scat_den {m : ℝ} (h : 0 ≤ m) : 0 < 1 - m + m ^ (1.02 : ℝ) := by
  rcases h.eq_or_lt with rfl | hm
  · rw [Real.zero_rpow (by norm_num)]; norm_num
  by_cases h1 : m ≤ 1
  · have : 0 < m ^ (1.02 : ℝ) := by positivity
    linarith
  · have := Real.rpow_le_rpow_of_exponent_le (not_le.mp h1).le (by norm_num : (1 : ℝ) ≤ 1.02)
    rw [Real.rpow_one] at this; linarith

private theorem absorb_facts {t m : ℝ} (ht : 0 ≤ t) (h0 : 0 ≤ m) (h : m ≤ 29) :
    aerosolR t m ≤ absorbR t m ∧ 0 < absorbR t m ∧ absorbR t m ≤ 1 := by
  obtain ⟨_, _, _, _, hp, hl⟩ := transmittances (x := 0) (y := 0) h0 h le_rfl (by norm_num) le_rfl ht
  have h1 := pow_le (q := 0.06) h0 h (by norm_num) pow29_06 (by norm_num)
  rw [show (1 : ℝ) + 0.06 = 1.06 by norm_num] at h1
  have h2 : 0 ≤ 1 - m + m ^ (1.06 : ℝ) := by
    rcases h0.eq_or_lt with rfl | hm
    · rw [Real.zero_rpow (by norm_num)]; norm_num
    by_cases h1 : m ≤ 1
    · have : 0 < m ^ (1.06 : ℝ) := by positivity
      linarith
    · have := Real.rpow_le_rpow_of_exponent_le (not_le.mp h1).le (by norm_num : (1 : ℝ) ≤ 1.06)
      rw [Real.rpow_one] at this; linarith
  have h3 : aerosolR t m ≤ absorbR t m := by
    unfold absorbR
    have := mul_nonneg (by linarith : 0 ≤ 1 - aerosolR t m) (by linarith : 0 ≤ 9 - (1 - m + m ^ (1.06 : ℝ)))
    norm_num at this ⊢; nlinarith
  refine ⟨h3, hp.trans_le h3, ?_⟩
  unfold absorbR
  have := mul_nonneg h2 (by linarith : 0 ≤ 1 - aerosolR t m)
  norm_num at this ⊢; nlinarith

/-- Inputs in the range of the model. -/
structure BirdRange (am p oz pw t asym alb : ℝ) : Prop where
  airmass : 0 ≤ am ∧ am ≤ 29
  pressure : 0 ≤ am * p / 101325 ∧ am * p / 101325 ≤ 29
  ozone : 0 ≤ oz * am ∧ oz * am ≤ 6
  water : 0 ≤ pw
  aod : 0 ≤ t
  asym : 0 ≤ asym ∧ asym ≤ 1
  albedo : 0 ≤ alb ∧ alb ≤ 0.9

example : BirdRange 1.5 101325 0.3 1.5 0.1 0.85 0.2 := by constructor <;> norm_num

private theorem refl_facts {am p oz pw t asym alb : ℝ} (h : BirdRange am p oz pw t asym alb) :
    0 < 1 - alb * skyReflectance am t asym ∧ 1 - alb * skyReflectance am t asym ≤ 1 := by
  obtain ⟨h1, h2, h3⟩ := absorb_facts h.aod h.airmass.1 h.airmass.2
  have h4 : aerosolR t am / absorbR t am ≤ 1 := (div_le_one h2).mpr h1
  have h5 : 0 ≤ aerosolR t am / absorbR t am := div_nonneg (Real.exp_pos _).le h2.le
  obtain ⟨ha, ha'⟩ := h.asym
  obtain ⟨hb, hb'⟩ := h.albedo
  have h6 : 0 ≤ skyReflectance am t asym := by
    unfold skyReflectance
    have := mul_nonneg (by linarith : 0 ≤ 1 - asym) (by linarith : 0 ≤ 1 - aerosolR t am / absorbR t am)
    norm_num at this ⊢; linarith
  have h7 : skyReflectance am t asym ≤ 1.0685 := by
    unfold skyReflectance
    have := mul_le_mul (by linarith : 1 - asym ≤ 1) (by linarith : 1 - aerosolR t am / absorbR t am ≤ 1) (by linarith) (by norm_num)
    norm_num at this ⊢; linarith
  constructor
  · have := mul_le_mul hb' h7 h6 (by norm_num)
    norm_num at this ⊢; linarith
  · have := mul_nonneg hb h6; linarith

/-- **C104**: in its range the model is the published one. -/
theorem bird_formula {z am a380 a500 pw oz p I0 asym alb : ℝ}
    (h : BirdRange am p oz pw (0.27583 * a380 + 0.35 * a500) asym alb) :
    bird (fin z) (fin am) (fin a380) (fin a500) (fin pw) (fin oz) (fin p) (fin I0) (fin asym) (fin alb) =
      (let t := 0.27583 * a380 + 0.35 * a500
       let n := birdDni am (am * p / 101325) oz pw t I0
       let g := (n * cosUp z + birdScattered (cosUp z) am (am * p / 101325) oz pw t I0 asym) / (1 - alb * skyReflectance am t asym)
       ⟨fin (n * cosUp z), fin g, fin n, fin (g - n * cosUp z)⟩) := by
  obtain ⟨h1, h2, h3⟩ := absorb_facts h.aod h.airmass.1 h.airmass.2
  have hr := (refl_facts h).1.ne'
  have hd := (scat_den h.airmass.1).ne'
  have hp : (101325 : ℝ) ≠ 0 := by norm_num
  have hw : 0 ≤ am * pw := mul_nonneg h.airmass.1 h.water
  have hc : npwhere (fin z < 90) (Fl.cos (radians (fin z))) 0 = fin (cosUp z) := by
    by_cases hz : z < 90
    · rw [npwhere_pos (by simpa using hz)]; simp [cosUp, hz]
    · rw [npwhere_neg (by simpa using hz)]; simp [cosUp, hz]
  have h2' := h2.ne'
  unfold absorbR at h2'
  unfold skyReflectance absorbR at hr
  unfold bird
  dsimp only
  rw [hc]
  simp only [Atmosphere.absoluteAirmass, Atmosphere.birdHulstrom80, ofNat_eq, ofScientific_eq, fin_mul, fin_add, fin_div hp,
    rayleigh_fin h.pressure.1, ozone_fin h.ozone.1, gases_fin h.pressure.1, water_fin hw, aerosol_fin h.aod h.airmass.1, one_eq,
    rpow_fin_nonneg h.airmass.1 (by norm_num : (0:ℝ) < 1.06), rpow_fin_nonneg h.airmass.1 (by norm_num : (0:ℝ) < 1.02), fin_sub,
    fin_div h2', fin_div hd, fin_div hr]
  simp only [birdDni, birdScattered, skyReflectance, absorbR]

example := bird_formula (z := 48) (am := 1.5) (a380 := 0.15) (a500 := 0.1) (pw := 1.5) (oz := 0.3) (p := 101325) (I0 := 1367) (asym := 0.85)
  (alb := 0.2) (by constructor <;> norm_num)

/-- **C104**: the components close: global is horizontal beam plus diffuse, and horizontal beam is beam times the cosine of the zenith
(0 from 90 degrees on); beam lies between 0 and 96.62 % of the extraterrestrial irradiance, and the diffuse irradiance is not
negative. -/
theorem bird_closure {z am a380 a500 pw oz p I0 asym alb : ℝ}
    (h : BirdRange am p oz pw (0.27583 * a380 + 0.35 * a500) asym alb) (hI : 0 ≤ I0) (hz : -90 ≤ z) :
    ∃ b g n d : ℝ, bird (fin z) (fin am) (fin a380) (fin a500) (fin pw) (fin oz) (fin p) (fin I0) (fin asym) (fin alb) =
        ⟨fin b, fin g, fin n, fin d⟩ ∧ g = b + d ∧ b = n * cosUp z ∧ 0 ≤ n ∧ n ≤ 0.9662 * I0 ∧ 0 ≤ d ∧ b ≤ g := by
  have hc : 0 ≤ cosUp z := by
    unfold cosUp
    split_ifs with hz'
    · have hp := Real.pi_pos
      apply Real.cos_nonneg_of_neg_pi_div_two_le_of_le
      · calc -(π / 2) = (-90) * (π / 180) := by ring
          _ ≤ z * (π / 180) := by gcongr
      · calc z * (π / 180) ≤ 90 * (π / 180) := by gcongr
          _ = π / 2 := by ring
    · exact le_rfl
  refine ⟨_, _, _, _, bird_formula h, by ring, rfl, ?_, ?_, ?_⟩
  all_goals
    obtain ⟨⟨r0, r1⟩, _, ⟨g0, g1⟩, _, _⟩ := transmittances (x := 0) (y := 0) (t := 0) h.pressure.1 h.pressure.2 le_rfl (by norm_num)
      le_rfl le_rfl
    obtain ⟨_, ⟨o0, o1⟩, _, ⟨w0, w1⟩, ⟨a0, a1⟩⟩ := transmittances h.airmass.1 h.airmass.2 h.ozone.1 h.ozone.2
      (mul_nonneg h.airmass.1 h.water) h.aod
  · unfold birdDni; positivity
  · unfold birdDni
    have hI' : 0 ≤ 0.9662 * I0 := by positivity
    have k1 := mul_le_of_le_one_right hI' a1
    have k1' := mul_nonneg hI' a0.le
    have k2 := (mul_le_of_le_one_right k1' w1).trans k1
    have k2' := mul_nonneg k1' w0.le
    have k3 := (mul_le_of_le_one_right k2' g1).trans k2
    have k3' := mul_nonneg k2' g0.le
    have k4 := (mul_le_of_le_one_right k3' o1).trans k3
    have k4' := mul_nonneg k3' o0.le
    exact (mul_le_of_le_one_right k4' r1).trans k4
  · obtain ⟨q1, q2, q3⟩ := absorb_facts h.aod h.airmass.1 h.airmass.2
    have q4 : aerosolR (0.27583 * a380 + 0.35 * a500) am / absorbR (0.27583 * a380 + 0.35 * a500) am ≤ 1 := (div_le_one q2).mpr q1
    have hs : 0 ≤ birdScattered (cosUp z) am (am * p / 101325) oz pw (0.27583 * a380 + 0.35 * a500) I0 asym := by
      unfold birdScattered
      have hd := scat_den h.airmass.1
      have s1 : 0 ≤ 0.5 * (1 - rayleighR (am * p / 101325)) := by linarith
      have s2 := mul_nonneg h.asym.1 (by linarith : 0 ≤ 1 - aerosolR (0.27583 * a380 + 0.35 * a500) am /
        absorbR (0.27583 * a380 + 0.35 * a500) am)
      have s3 := add_nonneg s1 s2
      positivity
    have hn : 0 ≤ birdDni am (am * p / 101325) oz pw (0.27583 * a380 + 0.35 * a500) I0 := by unfold birdDni; positivity
    obtain ⟨d0, d1⟩ := refl_facts h
    have hb := mul_nonneg hn hc
    have key : birdDni am (am * p / 101325) oz pw (0.27583 * a380 + 0.35 * a500) I0 * cosUp z ≤
        (birdDni am (am * p / 101325) oz pw (0.27583 * a380 + 0.35 * a500) I0 * cosUp z +
          birdScattered (cosUp z) am (am * p / 101325) oz pw (0.27583 * a380 + 0.35 * a500) I0 asym) /
          (1 - alb * skyReflectance am (0.27583 * a380 + 0.35 * a500) asym) := by
      rw [le_div_iff₀ d0]
      nlinarith
    exact ⟨by linarith, key⟩

example := bird_closure (z := 48) (am := 1.5) (a380 := 0.15) (a500 := 0.1) (pw := 1.5) (oz := 0.3) (p := 101325) (I0 := 1367) (asym := 0.85)
  (alb := 0.2) (by constructor <;> norm_num) (by norm_num) (by norm_num)

/-- **C104**: from 90 degrees on, horizontal beam, global and diffuse are 0 (for a finite air mass) while the beam component keeps its
formula value, whatever the zenith; a NaN air mass - what `get_relative_airmass` returns there - makes everything NaN. -/
theorem bird_night {z am a380 a500 pw oz p I0 asym alb : ℝ}
    (h : BirdRange am p oz pw (0.27583 * a380 + 0.35 * a500) asym alb) (hz : 90 ≤ z) :
    bird (fin z) (fin am) (fin a380) (fin a500) (fin pw) (fin oz) (fin p) (fin I0) (fin asym) (fin alb) =
      ⟨0, 0, fin (birdDni am (am * p / 101325) oz pw (0.27583 * a380 + 0.35 * a500) I0), 0⟩ := by
  rw [bird_formula h]
  have : cosUp z = 0 := by simp [cosUp, not_lt.mpr hz]
  simp [this, birdScattered]

example := bird_night (z := 95) (am := 29) (a380 := 0.15) (a500 := 0.1) (pw := 1.5) (oz := 0.2) (p := 101325) (I0 := 1367) (asym := 0.85)
  (alb := 0.2) (by constructor <;> norm_num) (by norm_num)

theorem bird_nan (z a380 a500 pw oz p I0 asym alb : Fl) :
    bird z nan a380 a500 pw oz p I0 asym alb = ⟨nan, nan, nan, nan⟩ := by
  have h : rpow nan (fin 0.9108) = nan := rpow_nan_left (by norm_num)
  simp [bird, birdAerosol, birdWater, birdOzone, birdGases, birdRayleigh, h]

end Pvlib.Props.ClearskyBird
end
