import Verif.Props.TrigValues
import Verif.Model.Decomposition
import Verif.Props.Spec

/-! # Properties C23-C28: decomposition, clearness indices, completion, extraterrestrial radiation -/

noncomputable section
open scoped Classical
open Real
namespace Pvlib.Props.Decomposition
open Fl Pvlib.Tools Pvlib.Irradiance Pvlib.Spec

/-! ## C28 Extraterrestrial radiation -/

private theorem cosd_deg (z : ℝ) : cosd (fin z) = fin (cosDeg z) := by simp [cosDeg, rad]

theorem extraSpencer_fin (doy sc : ℝ) :
    ∃ f : ℝ, extraSpencer (fin doy) (fin sc) = fin (sc * f) ∧ 0.96 ≤ f ∧ f ≤ 1.04 := by
  set B := 2 * π / 365 * (doy - 1) with hB
  refine ⟨1.00011 + 0.034221 * Real.cos B + 0.00128 * Real.sin B + 0.000719 * Real.cos (2 * B)
    + 7.7e-05 * Real.sin (2 * B), ?_, ?_, ?_⟩
  · simp [extraSpencer, simpleDayAngle, hB]
  · have h1 := Real.neg_one_le_cos B
    have h2 := Real.neg_one_le_sin B
    have h3 := Real.neg_one_le_cos (2 * B)
    have h4 := Real.neg_one_le_sin (2 * B)
    norm_num at *; linarith
  · have h1 := Real.cos_le_one B
    have h2 := Real.sin_le_one B
    have h3 := Real.cos_le_one (2 * B)
    have h4 := Real.sin_le_one (2 * B)
    norm_num at *; linarith

/-- **C28** `get_extra_radiation` by `spencer` and `asce` is the solar constant times a factor in
`[0.96, 1.04]`, for any (real) day of year. -/
theorem extra_near_constant (doy sc : ℝ) (method : String)
    (hm : pyLower method = "spencer" ∨ pyLower method = "asce") :
    ∃ f : ℝ, getExtraRadiation (fin doy) (fin sc) method = .ok (fin (sc * f)) ∧ 0.96 ≤ f ∧ f ≤ 1.04 := by
  rcases hm with hm | hm
  · obtain ⟨f, h, h1, h2⟩ := extraSpencer_fin doy sc
    refine ⟨f, ?_, h1, h2⟩
    rw [← h]
    simp [getExtraRadiation, hm, extraSpencer]
  · refine ⟨1 + 0.033 * Real.cos (2 * π / 365 * (doy - 0)), ?_, ?_, ?_⟩
    · simp [getExtraRadiation, hm, simpleDayAngle]
    · have := Real.neg_one_le_cos (2 * π / 365 * (doy - 0)); norm_num at *; linarith
    · have := Real.cos_le_one (2 * π / 365 * (doy - 0)); norm_num at *; linarith

example := extra_near_constant 172 1366.1 "Spencer" (Or.inl (by decide))

/-- **C28** the accepted methods: exactly the four documented names (case-insensitive). -/
theorem extra_error_iff (doy sc : Fl) (method : String) (dist : Fl) :
    getExtraRadiation doy sc method dist = .error .valueError ↔
      pyLower method ∉ ["asce", "spencer", "pyephem", "nrel"] := by
  simp only [getExtraRadiation, List.mem_cons, List.not_mem_nil, or_false, not_or]
  split_ifs with h1 h2 h3 <;> simp_all
  tauto

/-- **C28** the factor is periodic: adding 365 days changes nothing. -/
theorem extra_periodic (doy sc : ℝ) : extraSpencer (fin (doy + 365)) (fin sc) = extraSpencer (fin doy) (fin sc) := by
  have e1 : 2 * π / 365 * (doy + 365 - 1) = 2 * π / 365 * (doy - 1) + 2 * π := by ring
  have e2 : 2 * (2 * π / 365 * (doy - 1) + 2 * π) = 2 * (2 * π / 365 * (doy - 1)) + (2 : ℕ) * (2 * π) := by
    push_cast; ring
  simp only [extraSpencer, simpleDayAngle, fin_sub, fin_mul, cos_fin, sin_fin, one_eq, ofNat_eq, e1, e2,
    Real.cos_add_two_pi, Real.sin_add_two_pi, Real.cos_add_nat_mul_two_pi, Real.sin_add_nat_mul_two_pi]

example : pyLower "Spencer" = "spencer" := by decide

/-! ## C25 Clearness and clear-sky indices -/

/-- **C25** `clearsky_index`: NaN exactly when an input is not finite. -/
theorem clearskyIndex_nan_iff (ghi clear : Fl) (m : ℝ) :
    clearskyIndex ghi clear (fin m) = nan ↔ ¬ isfinite ghi ∨ ¬ isfinite clear := by
  constructor
  · intro h
    by_contra hc
    push Not at hc
    obtain ⟨⟨g, rfl⟩, c, rfl⟩ := hc
    simp only [clearskyIndex, isfinite_fin, not_true_eq_false, or_self, npwhere_false] at h
    by_cases hk : isfinite (fin g / fin c)
    · obtain ⟨k, hk⟩ := hk
      simp [hk] at h
    · simp [hk] at h
  · intro h
    simp [clearskyIndex, npwhere_pos h]

/-- **C25** value of `clearsky_index` on finite inputs: 0 when the clear-sky irradiance is 0, otherwise
the ratio limited to `[0, max]`. -/
theorem clearskyIndex_value (g c m : ℝ) :
    clearskyIndex (fin g) (fin c) (fin m) = fin (min (max (if c = 0 then 0 else g / c) 0) m) := by
  by_cases hc : c = 0
  · subst hc
    have : ¬ isfinite (fin g / fin 0) := by
      rw [fin_div_zero]; rintro ⟨r, hr⟩; exact infSign_ne_fin _ _ hr
    simp [clearskyIndex, this]
  · simp [clearskyIndex, hc]

/-- **C25** range of `clearsky_index`. -/
theorem clearskyIndex_range (ghi clear : Fl) (m : ℝ) (hm : 0 ≤ m) :
    NanOr (clearskyIndex ghi clear (fin m)) (fun k => 0 ≤ k ∧ k ≤ m) := by
  by_cases h : ¬ isfinite ghi ∨ ¬ isfinite clear
  · exact Or.inl ((clearskyIndex_nan_iff _ _ _).mpr h)
  · push Not at h
    obtain ⟨⟨g, rfl⟩, c, rfl⟩ := h
    rw [clearskyIndex_value, nanOr_fin]
    exact ⟨le_min (le_max_right _ _) hm, min_le_right _ _⟩

example := clearskyIndex_range (fin 700) (fin 650) 2 (by norm_num)

private theorem limit_range (x : Fl) (m : ℝ) (hm : 0 ≤ m) :
    NanOr (minimum (maximum x 0) (fin m)) (fun k => 0 ≤ k ∧ k ≤ m) := by
  cases x <;> simp [hm]

/-- **C25** range of `clearness_index` (any inputs). -/
theorem clearnessIndex_range (ghi z e mc : Fl) (m : ℝ) (hm : 0 ≤ m) :
    NanOr (clearnessIndex ghi z e mc (fin m)) (fun k => 0 ≤ k ∧ k ≤ m) := limit_range _ _ hm

example := clearnessIndex_range (fin 700) (fin 40) (fin 1367) (fin 0.065) 2 (by norm_num)

/-- **C25** range of `clearness_index_zenith_independent` (any inputs). -/
theorem clearnessIndexZI_range (k am : Fl) (m : ℝ) (hm : 0 ≤ m) :
    NanOr (clearnessIndexZenithIndependent k am (fin m)) (fun k => 0 ≤ k ∧ k ≤ m) := limit_range _ _ hm

example := clearnessIndexZI_range (fin 0.6) (fin 1.5) 2 (by norm_num)

/-- **C25** value of `clearness_index`: GHI over the horizontal extraterrestrial irradiance (with the
cosine held above its minimum), limited to `[0, max]`. -/
theorem clearnessIndex_value (g z e mc m : ℝ) (he : e ≠ 0) (hmc : 0 < mc) :
    clearnessIndex (fin g) (fin z) (fin e) (fin mc) (fin m)
      = fin (min (max (g / (e * max (cosDeg z) mc)) 0) m) := by
  have : e * max (cosDeg z) mc ≠ 0 :=
    mul_ne_zero he (ne_of_gt (lt_of_lt_of_le hmc (le_max_right _ _)))
  simp [clearnessIndex, cosd_deg, this]

/-- **C25** negative irradiance has clearness 0. -/
theorem clearnessIndex_negative (g z e mc m : ℝ) (he : 0 < e) (hmc : 0 < mc) (hm : 0 ≤ m) (hg : g ≤ 0) :
    clearnessIndex (fin g) (fin z) (fin e) (fin mc) (fin m) = fin 0 := by
  rw [clearnessIndex_value g z e mc m he.ne' hmc]
  have : 0 < e * max (cosDeg z) mc := mul_pos he (lt_of_lt_of_le hmc (le_max_right _ _))
  rw [max_eq_right (div_nonpos_of_nonpos_of_nonneg hg this.le), min_eq_left hm]

example := clearnessIndex_negative (-3) 95 1367 0.065 2 (by norm_num) (by norm_num) (by norm_num) (by norm_num)

/-- **C25** the air-mass correction: for a positive airmass, `kt'` is `kt` divided by a factor in
`[0.1, 1.131]`, so clear low-sun conditions are not penalised. -/
theorem ktPrimeFactor_range (am : ℝ) (h : 0 < am) :
    ∃ f : ℝ, ktKtPrimeFactor (fin am) = fin f ∧ 0.1 < f ∧ f ≤ 1.131 := by
  have h1 : 0.9 + 9.4 / am ≠ 0 := by positivity
  refine ⟨1.031 * Real.exp (-1.4 / (0.9 + 9.4 / am)) + 0.1, ?_, ?_, ?_⟩
  · simp only [ktKtPrimeFactor, ofScientific_eq, neg_fin, fin_div h.ne', fin_add, fin_div h1, exp_fin, fin_mul]
  · have := Real.exp_pos (-1.4 / (0.9 + 9.4 / am)); norm_num; positivity
  · have : Real.exp (-1.4 / (0.9 + 9.4 / am)) ≤ 1 := by
      rw [Real.exp_le_one_iff]; apply div_nonpos_of_nonpos_of_nonneg (by norm_num); positivity
    have e : (1.131 : ℝ) = 1.031 * 1 + 0.1 := by norm_num
    rw [e]
    exact add_le_add_left (mul_le_mul_of_nonneg_left this (by norm_num)) _

example : clearnessIndex (fin 500) (fin 60) (fin 1000) (fin 0.065) (fin 1) = fin 1 := by
  have h : cosDeg 60 = 1 / 2 := by
    simp only [cosDeg, rad]; rw [show (60 : ℝ) * (π / 180) = π / 3 by ring]; exact Real.cos_pi_div_three
  rw [clearnessIndex_value _ _ _ _ _ (by norm_num) (by norm_num), h]; norm_num

/-! ## C23, C24 the Erbs family and Louche -/

/-- What "closes" means: the result is real, `dni ≥ 0`, and `ghi = dhi + dni cos(zenith)`. -/
def Closes (r : Decomp) (ghi z : ℝ) : Prop :=
  ∃ n h : ℝ, r.dni = fin n ∧ r.dhi = fin h ∧ 0 ≤ n ∧ ghi = h + n * cosDeg z

private theorem finish_closes (g z mz : ℝ) (kt : Fl) (d : ℝ) (hz : z ≤ mz → cosDeg z ≠ 0) :
    Closes (finishDf (fin g) (fin z) (fin mz) kt (fin d)) g z := by
  by_cases hbad : mz < z ∨ g < 0
  · refine ⟨0, g, ?_, ?_, le_rfl, by ring⟩ <;>
      simp only [finishDf] <;> rw [npwhere_pos] <;> rcases hbad with h | h <;> simp [h]
  · push Not at hbad
    have hc := hz hbad.1
    by_cases hn : (g - d * g) / cosDeg z < 0
    · refine ⟨0, g, ?_, ?_, le_rfl, by ring⟩ <;>
        simp only [finishDf] <;> rw [npwhere_pos] <;> simp [cosd_deg, hc, hn]
    · refine ⟨(g - d * g) / cosDeg z, d * g, ?_, ?_, not_lt.mp hn, ?_⟩
      · simp only [finishDf]; rw [npwhere_neg]
        · simp [cosd_deg, hc]
        · simp [cosd_deg, hc, not_lt.mp hn, hbad]
      · simp only [finishDf]; rw [npwhere_neg]
        · simp
        · simp [cosd_deg, hc, not_lt.mp hn, hbad]
      · field_simp; ring

private theorem finish_fraction (g z mz : ℝ) (kt : Fl) (d : ℝ) (hz : z ≤ mz → cosDeg z ≠ 0)
    (hg : 0 ≤ g) (h0 : 0 ≤ d) (h1 : d ≤ 1) :
    ∃ h, (finishDf (fin g) (fin z) (fin mz) kt (fin d)).dhi = fin h ∧ 0 ≤ h ∧ h ≤ g := by
  simp only [finishDf]
  by_cases hb : fin mz < fin z ∨ fin g < 0 ∨ (fin g - fin d * fin g) / cosd (fin z) < 0
  · exact ⟨g, by rw [npwhere_pos hb], hg, le_rfl⟩
  · exact ⟨d * g, by rw [npwhere_neg hb, fin_mul], by positivity, by nlinarith⟩

/-- Clearness index used by the family, as a real number in [0, 1]. -/
private theorem kt_fin (g z e mc : ℝ) (he : 0 < e) (hmc : 0 < mc) :
    ∃ k : ℝ, clearnessIndex (fin g) (fin z) (fin e) (fin mc) 1 = fin k ∧ 0 ≤ k ∧ k ≤ 1 :=
  ⟨_, clearnessIndex_value g z e mc 1 he.ne' hmc, le_min (le_max_right _ _) (by norm_num), min_le_right _ _⟩

private theorem extra_pos (doy : ℝ) :
    ∃ e : ℝ, 0 < e ∧ extraSpencer (fin doy) 1366.1 = fin e := by
  obtain ⟨f, h, h1, h2⟩ := extraSpencer_fin doy 1366.1
  refine ⟨1366.1 * f, ?_, h⟩
  norm_num at *; linarith

private theorem erbs_poly (k : ℝ) (h0 : 0.22 < k) (h1 : k ≤ 0.8) :
    0 ≤ 0.9511 - 0.1604 * k + 4.388 * k ^ 2 - 16.638 * k ^ 3 + 12.336 * k ^ 4 ∧
    0.9511 - 0.1604 * k + 4.388 * k ^ 2 - 16.638 * k ^ 3 + 12.336 * k ^ 4 ≤ 1 := by
  constructor
  · nlinarith [mul_nonneg (sub_nonneg.mpr h0.le) (sub_nonneg.mpr h1), sq_nonneg (k - 0.8), sq_nonneg (k - 0.7),
      sq_nonneg (k * (k - 0.8)), sq_nonneg (k * k - 0.7 * k), sq_nonneg (k^2 - 0.6)]
  · nlinarith [mul_nonneg (sub_nonneg.mpr h0.le) (sub_nonneg.mpr h1), sq_nonneg (k - 0.3), sq_nonneg (k - 0.2),
      mul_nonneg (mul_nonneg (sub_nonneg.mpr h0.le) (sub_nonneg.mpr h1)) (by linarith : 0 ≤ k),
      mul_nonneg (mul_nonneg (sub_nonneg.mpr h0.le) (sub_nonneg.mpr h1)) (sq_nonneg k)]

theorem erbsDf_range (k : ℝ) (h0 : 0 ≤ k) (h1 : k ≤ 1) :
    ∃ d : ℝ, erbsDf (fin k) = fin d ∧ 0 ≤ d ∧ d ≤ 1 := by
  simp only [erbsDf, ofScientific_eq, one_eq, fin_mul, fin_sub, fin_add, fin_pow, fin_lt, fin_le]
  by_cases ha : 0.8 < k
  · exact ⟨0.165, by rw [npwhere_pos ha], by norm_num, by norm_num⟩
  · rw [npwhere_neg ha]
    by_cases hb : 0.22 < k ∧ k ≤ 0.8
    · rw [npwhere_pos hb]
      exact ⟨_, rfl, erbs_poly k hb.1 hb.2⟩
    · rw [npwhere_neg hb]
      exact ⟨_, rfl, by norm_num; linarith, by norm_num; linarith⟩

private theorem driesse_poly (k : ℝ) (h0 : 0.216 < k) (h1 : k ≤ 0.792) :
    0 ≤ (((12.26911439571261 * k - 16.470508424697307) * k + 4.246926715218317) * k
      - 0.11390583806313881) * k + 0.946296633571001 ∧
    (((12.26911439571261 * k - 16.470508424697307) * k + 4.246926715218317) * k
      - 0.11390583806313881) * k + 0.946296633571001 ≤ 1 := by
  constructor
  · nlinarith [mul_nonneg (sub_nonneg.mpr h0.le) (sub_nonneg.mpr h1), sq_nonneg (k - 0.8), sq_nonneg (k - 0.7),
      sq_nonneg (k * (k - 0.8)), sq_nonneg (k * k - 0.7 * k), sq_nonneg (k^2 - 0.6)]
  · nlinarith [mul_nonneg (sub_nonneg.mpr h0.le) (sub_nonneg.mpr h1), sq_nonneg (k - 0.3), sq_nonneg (k - 0.2),
      mul_nonneg (mul_nonneg (sub_nonneg.mpr h0.le) (sub_nonneg.mpr h1)) (by linarith : 0 ≤ k),
      mul_nonneg (mul_nonneg (sub_nonneg.mpr h0.le) (sub_nonneg.mpr h1)) (sq_nonneg k)]

theorem erbsDriesseDf_range (k : ℝ) (h0 : 0 ≤ k) (h1 : k ≤ 1) :
    ∃ d : ℝ, erbsDriesseDf (fin k) = fin d ∧ 0 ≤ d ∧ d ≤ 1 := by
  simp only [erbsDriesseDf, ofScientific_eq, one_eq, fin_mul, fin_sub, fin_lt]
  by_cases ha : 0.792 < k
  · exact ⟨0.165, by rw [npwhere_pos ha], by norm_num, by norm_num⟩
  · rw [npwhere_neg ha]
    by_cases hb : 0.216 < k
    · rw [npwhere_pos hb]
      refine ⟨_, ?_, driesse_poly k hb (not_lt.mp ha)⟩
      simp [polyval]; ring
    · rw [npwhere_neg hb]
      exact ⟨_, rfl, by norm_num; linarith, by norm_num; linarith⟩

theorem orgillHollandsDf_range (k : ℝ) (h0 : 0 ≤ k) (h1 : k ≤ 1) :
    ∃ d : ℝ, orgillHollandsDf (fin k) = fin d ∧ 0 ≤ d ∧ d ≤ 1 := by
  simp only [orgillHollandsDf, ofScientific_eq, one_eq, fin_mul, fin_sub, fin_lt, fin_le]
  by_cases ha : 0.75 < k
  · exact ⟨0.177, by rw [npwhere_pos ha], by norm_num, by norm_num⟩
  · rw [npwhere_neg ha]
    by_cases hb : 0.35 ≤ k ∧ k ≤ 0.75
    · rw [npwhere_pos hb]
      refine ⟨_, rfl, ?_, ?_⟩ <;> obtain ⟨hb1, hb2⟩ := hb <;> norm_num at * <;> linarith
    · rw [npwhere_neg hb]
      exact ⟨_, rfl, by norm_num; linarith, by norm_num; linarith⟩

theorem bolandDf_range (a b k : ℝ) :
    ∃ d : ℝ, (1 : Fl) / (1 + Fl.exp (fin a * (fin k - fin b))) = fin d ∧ 0 < d ∧ d < 1 := by
  have h := Real.exp_pos (a * (k - b))
  have hne : (1 : ℝ) + Real.exp (a * (k - b)) ≠ 0 := by positivity
  refine ⟨1 / (1 + Real.exp (a * (k - b))), ?_, by positivity, ?_⟩
  · simp [hne]
  · rw [div_lt_one (by positivity)]; linarith

section Family
variable (g z doy mc mz : ℝ)

/-- **C23** `erbs` closes: any GHI, any zenith, any thresholds (the only hypothesis is that the code
does not divide by an exactly zero cosine on a row it considers good). -/
theorem erbs_closes (hmc : 0 < mc) (hz : z ≤ mz → cosDeg z ≠ 0) :
    Closes (erbs (fin g) (fin z) (fin doy) (fin mc) (fin mz)) g z := by
  obtain ⟨e, he, hE⟩ := extra_pos doy
  obtain ⟨k, hk, h0, h1⟩ := kt_fin g z e mc he hmc
  obtain ⟨d, hd, -, -⟩ := erbsDf_range k h0 h1
  simp only [erbs, hE, hk, hd]
  exact finish_closes g z mz _ d hz

example := erbs_closes 500 40 172 0.065 87 (by norm_num) (fun _ => cosDeg_ne_of (by norm_num) (by norm_num))

/-- **C23** `orgill_hollands` closes (`dni_extra` given or computed). -/
theorem orgillHollands_closes (de : Option ℝ) (hde : ∀ e, de = some e → 0 < e) (hmc : 0 < mc)
    (hz : z ≤ mz → cosDeg z ≠ 0) :
    Closes (orgillHollands (fin g) (fin z) (fin doy) (de.map fin) (fin mc) (fin mz)) g z := by
  cases de with
  | none =>
    obtain ⟨e, he, hE⟩ := extra_pos doy
    obtain ⟨k, hk, h0, h1⟩ := kt_fin g z e mc he hmc
    obtain ⟨d, hd, -, -⟩ := orgillHollandsDf_range k h0 h1
    simp only [orgillHollands, Option.map_none, hE, hk, hd]
    exact finish_closes g z mz _ d hz
  | some e =>
    obtain ⟨k, hk, h0, h1⟩ := kt_fin g z e mc (hde e rfl) hmc
    obtain ⟨d, hd, -, -⟩ := orgillHollandsDf_range k h0 h1
    simp only [orgillHollands, Option.map_some, hk, hd]
    exact finish_closes g z mz _ d hz

example := orgillHollands_closes 500 40 172 0.065 87 (some 1367) (by rintro e ⟨rfl⟩; norm_num) (by norm_num)
  (fun _ => cosDeg_ne_of (by norm_num) (by norm_num))

/-- **C23** `boland` closes, for any coefficients. -/
theorem boland_closes (a b : ℝ) (hmc : 0 < mc) (hz : z ≤ mz → cosDeg z ≠ 0) :
    Closes (boland (fin g) (fin z) (fin doy) (fin a) (fin b) (fin mc) (fin mz)) g z := by
  obtain ⟨e, he, hE⟩ := extra_pos doy
  obtain ⟨k, hk, h0, h1⟩ := kt_fin g z e mc he hmc
  obtain ⟨d, hd, -, -⟩ := bolandDf_range a b k
  simp only [boland, hE, hk, hd]
  exact finish_closes g z mz _ d hz

example := boland_closes 500 40 172 0.065 87 8.645 0.613 (by norm_num) (fun _ => cosDeg_ne_of (by norm_num) (by norm_num))

/-- **C23** `erbs_driesse` closes on the non-negative part of GHI (it clips GHI at 0 first). -/
theorem erbsDriesse_closes (doy' de : Option ℝ) (hin : doy' ≠ none ∨ de ≠ none)
    (hde : ∀ e, de = some e → 0 < e) (hmc : 0 < mc) (hz : z ≤ mz → cosDeg z ≠ 0) :
    ∃ r, erbsDriesse (fin g) (fin z) (doy'.map fin) (de.map fin) (fin mc) (fin mz) = .ok r ∧
      Closes r (max 0 g) z := by
  obtain ⟨e, he, hE⟩ : ∃ e : ℝ, 0 < e ∧ erbsDriesse (fin g) (fin z) (doy'.map fin) (de.map fin) (fin mc)
      (fin mz) = .ok (erbsDriesseExtra (fin g) (fin z) (fin e) (fin mc) (fin mz)) := by
    cases de with
    | some e => exact ⟨e, hde e rfl, by cases doy' <;> simp [erbsDriesse]⟩
    | none =>
      cases doy' with
      | none => simp at hin
      | some d =>
        obtain ⟨e, he, h⟩ := extra_pos d
        exact ⟨e, he, by simp only [erbsDriesse, Option.map_some, Option.map_none, h]⟩
  refine ⟨_, hE, ?_⟩
  obtain ⟨k, hk, h0, h1⟩ := kt_fin (max 0 g) z e mc he hmc
  obtain ⟨d, hd, -, -⟩ := erbsDriesseDf_range k h0 h1
  simp only [erbsDriesseExtra, zero_eq, maximum_fin, hk, hd]
  exact finish_closes _ z mz _ d hz

example := erbsDriesse_closes 500 40 0.065 87 (some 172) none (Or.inl (by simp)) (by simp) (by norm_num)
  (fun _ => cosDeg_ne_of (by norm_num) (by norm_num))

/-- **C23** `erbs_driesse` needs a date or the extraterrestrial irradiance. -/
theorem erbsDriesse_error_iff (ghi zen mc mz : Fl) (doy' de : Option Fl) :
    erbsDriesse ghi zen doy' de mc mz = .error .valueError ↔ doy' = none ∧ de = none := by
  cases doy' <;> cases de <;> simp [erbsDriesse]

/-- **C23** `louche` closes. -/
theorem louche_closes :
    Closes (louche (fin g) (fin z) (fin doy) (fin mz)) g z := by
  obtain ⟨e, he, hE⟩ := extra_pos doy
  have hk := clearnessIndex_value g z e 0.065 2 he.ne' (by norm_num)
  set k := min (max (g / (e * max (cosDeg z) 0.065)) 0) 2
  have hk' : clearnessIndex (fin g) (fin z) (fin e) = fin k := hk
  simp only [louche, hE, hk']
  simp only [ofScientific_eq, neg_fin, fin_pow, fin_mul, fin_add, fin_sub, cosd_deg]
  set n := (-10.627 * k ^ 5 + 15.307 * k ^ 4 - 5.205 * k ^ 3 + 0.994 * k ^ 2 - 0.059 * k + 0.002) * e
  by_cases hb : fin mz < fin z ∨ fin g < 0 ∨ fin n < 0
  · exact ⟨0, g, npwhere_pos hb _ _, npwhere_pos hb _ _, le_rfl, by ring⟩
  · refine ⟨n, g - n * cosDeg z, npwhere_neg hb _ _, npwhere_neg hb _ _, ?_, by ring⟩
    push Not at hb
    simpa using hb.2.2

/-- **C24** `erbs`: for `ghi ≥ 0`, `0 ≤ dhi ≤ ghi`. -/
theorem erbs_fraction (hg : 0 ≤ g) (hmc : 0 < mc) (hz : z ≤ mz → cosDeg z ≠ 0) :
    ∃ h, (erbs (fin g) (fin z) (fin doy) (fin mc) (fin mz)).dhi = fin h ∧ 0 ≤ h ∧ h ≤ g := by
  obtain ⟨e, he, hE⟩ := extra_pos doy
  obtain ⟨k, hk, h0, h1⟩ := kt_fin g z e mc he hmc
  obtain ⟨d, hd, d0, d1⟩ := erbsDf_range k h0 h1
  simp only [erbs, hE, hk, hd]
  exact finish_fraction g z mz _ d hz hg d0 d1

example := erbs_fraction 500 40 172 0.065 87 (by norm_num) (by norm_num) (fun _ => cosDeg_ne_of (by norm_num) (by norm_num))

/-- **C24** `orgill_hollands`: `0 ≤ dhi ≤ ghi`. -/
theorem orgillHollands_fraction (hg : 0 ≤ g) (hmc : 0 < mc) (hz : z ≤ mz → cosDeg z ≠ 0) :
    ∃ h, (orgillHollands (fin g) (fin z) (fin doy) none (fin mc) (fin mz)).dhi = fin h ∧ 0 ≤ h ∧ h ≤ g := by
  obtain ⟨e, he, hE⟩ := extra_pos doy
  obtain ⟨k, hk, h0, h1⟩ := kt_fin g z e mc he hmc
  obtain ⟨d, hd, d0, d1⟩ := orgillHollandsDf_range k h0 h1
  simp only [orgillHollands, hE, hk, hd]
  exact finish_fraction g z mz _ d hz hg d0 d1

example := orgillHollands_fraction 500 40 172 0.065 87 (by norm_num) (by norm_num)
  (fun _ => cosDeg_ne_of (by norm_num) (by norm_num))

/-- **C24** `boland`: `0 ≤ dhi ≤ ghi`. -/
theorem boland_fraction (a b : ℝ) (hg : 0 ≤ g) (hmc : 0 < mc) (hz : z ≤ mz → cosDeg z ≠ 0) :
    ∃ h, (boland (fin g) (fin z) (fin doy) (fin a) (fin b) (fin mc) (fin mz)).dhi = fin h ∧
      0 ≤ h ∧ h ≤ g := by
  obtain ⟨e, he, hE⟩ := extra_pos doy
  obtain ⟨k, hk, h0, h1⟩ := kt_fin g z e mc he hmc
  obtain ⟨d, hd, d0, d1⟩ := bolandDf_range a b k
  simp only [boland, hE, hk, hd]
  exact finish_fraction g z mz _ d hz hg d0.le d1.le

example := boland_fraction 500 40 172 0.065 87 8.645 0.613 (by norm_num) (by norm_num)
  (fun _ => cosDeg_ne_of (by norm_num) (by norm_num))

/-- **C24** `erbs_driesse`: `0 ≤ dhi ≤ max 0 ghi`. -/
theorem erbsDriesse_fraction (hmc : 0 < mc) (hz : z ≤ mz → cosDeg z ≠ 0) :
    ∃ r h, erbsDriesse (fin g) (fin z) (some (fin doy)) none (fin mc) (fin mz) = .ok r ∧
      r.dhi = fin h ∧ 0 ≤ h ∧ h ≤ max 0 g := by
  obtain ⟨e, he, hE⟩ := extra_pos doy
  obtain ⟨k, hk, h0, h1⟩ := kt_fin (max 0 g) z e mc he hmc
  obtain ⟨d, hd, d0, d1⟩ := erbsDriesseDf_range k h0 h1
  obtain ⟨h, hh, hh0, hh1⟩ := finish_fraction (max 0 g) z mz (fin k) d hz (le_max_left _ _) d0 d1
  refine ⟨_, h, rfl, ?_, hh0, hh1⟩
  simp only [erbsDriesseExtra, hE, zero_eq, maximum_fin, hk, hd]
  exact hh

example := erbsDriesse_fraction 500 40 172 0.065 87 (by norm_num) (fun _ => cosDeg_ne_of (by norm_num) (by norm_num))

end Family

/-- The hypotheses of C23/C24 hold for every sun position up to the default `max_zenith` of 87. -/
theorem default_threshold_ok (z : ℝ) (h0 : 0 ≤ z) : z ≤ 87 → cosDeg z ≠ 0 := by
  intro h
  have hp := Real.pi_pos
  have : 0 < cosDeg z := by
    apply Real.cos_pos_of_mem_Ioo
    constructor
    · have : 0 ≤ z * (π / 180) := by positivity
      linarith
    · nlinarith
  exact this.ne'

example := default_threshold_ok 40 (by norm_num) (by norm_num)

/-! ## C26 DIRINT bins -/

/-- **C26** every `kt'` in [0, 1] has a bin, and it is the one whose edges contain it. -/
theorem ktPrimeBin_spec (k : ℝ) (b : ℕ) (hb : b ≠ 0) :
    ktPrimeBin (fin k) = b ↔
      (b = 1 ∧ 0 ≤ k ∧ k < 0.24) ∨ (b = 2 ∧ 0.24 ≤ k ∧ k < 0.4) ∨ (b = 3 ∧ 0.4 ≤ k ∧ k < 0.56) ∨
      (b = 4 ∧ 0.56 ≤ k ∧ k < 0.7) ∨ (b = 5 ∧ 0.7 ≤ k ∧ k < 0.8) ∨ (b = 6 ∧ 0.8 ≤ k ∧ k ≤ 1) := by
  simp only [ktPrimeBin, zero_eq, one_eq, ofScientific_eq, fin_le, fin_lt]
  norm_num
  grind

theorem ktPrimeBin_zero_iff (k : ℝ) : ktPrimeBin (fin k) = 0 ↔ k < 0 ∨ 1 < k := by
  simp only [ktPrimeBin, zero_eq, one_eq, ofScientific_eq, fin_le, fin_lt]
  norm_num
  grind

theorem ktPrimeBin_le (k : Fl) : ktPrimeBin k ≤ 6 := by
  simp only [ktPrimeBin]; split_ifs <;> omega
theorem zenithBin_le (k : Fl) : zenithBin k ≤ 6 := by
  simp only [zenithBin]; split_ifs <;> omega
theorem wBin_le (k : Fl) : wBin k ≤ 5 := by
  simp only [wBin]; split_ifs <;> omega
theorem deltaBin_le (k : Fl) : deltaBin k ≤ 7 := by
  simp only [deltaBin]; split_ifs <;> omega

/-- **C26** zenith bins. -/
theorem zenithBin_spec (z : ℝ) (b : ℕ) (hb : b ≠ 0) :
    zenithBin (fin z) = b ↔
      (b = 1 ∧ 0 ≤ z ∧ z < 25) ∨ (b = 2 ∧ 25 ≤ z ∧ z < 40) ∨ (b = 3 ∧ 40 ≤ z ∧ z < 55) ∨
      (b = 4 ∧ 55 ≤ z ∧ z < 70) ∨ (b = 5 ∧ 70 ≤ z ∧ z < 80) ∨ (b = 6 ∧ 80 ≤ z) := by
  simp only [zenithBin, zero_eq, ofNat_eq, fin_le, fin_lt]
  grind

example : zenithBin (fin 40) = 3 := (zenithBin_spec 40 3 (by norm_num)).2 (by norm_num)

/-- **C26** water-vapour bins; `-1` is the sentinel "no dew point". -/
theorem wBin_spec (w : ℝ) (b : ℕ) (hb : b ≠ 0) :
    wBin (fin w) = b ↔
      (b = 1 ∧ 0 ≤ w ∧ w < 1) ∨ (b = 2 ∧ 1 ≤ w ∧ w < 2) ∨ (b = 3 ∧ 2 ≤ w ∧ w < 3) ∨
      (b = 4 ∧ 3 ≤ w) ∨ (b = 5 ∧ w = -1) := by
  simp only [wBin, zero_eq, one_eq, ofNat_eq, fin_le, fin_lt, neg_fin, eqv_fin]
  grind

example : wBin (fin 1.5) = 2 := (wBin_spec 1.5 2 (by norm_num)).2 (by norm_num)

/-- **C26** stability bins; `-1` is the sentinel "not used". -/
theorem deltaBin_spec (d : ℝ) (b : ℕ) (hb : b ≠ 0) :
    deltaBin (fin d) = b ↔
      (b = 1 ∧ 0 ≤ d ∧ d < 0.015) ∨ (b = 2 ∧ 0.015 ≤ d ∧ d < 0.035) ∨ (b = 3 ∧ 0.035 ≤ d ∧ d < 0.07) ∨
      (b = 4 ∧ 0.07 ≤ d ∧ d < 0.15) ∨ (b = 5 ∧ 0.15 ≤ d ∧ d < 0.3) ∨ (b = 6 ∧ 0.3 ≤ d ∧ d ≤ 1) ∨
      (b = 7 ∧ d = -1) := by
  simp only [deltaBin, zero_eq, one_eq, ofScientific_eq, fin_le, fin_lt, neg_fin, eqv_fin]
  norm_num
  grind

example : deltaBin (fin 0.07) = 4 := (deltaBin_spec 0.07 4 (by norm_num)).2 (by norm_num)

theorem zenithBin_zero_iff (z : ℝ) : zenithBin (fin z) = 0 ↔ z < 0 := by
  simp only [zenithBin, zero_eq, ofNat_eq, fin_le, fin_lt]
  grind

theorem wBin_zero_iff (w : ℝ) : wBin (fin w) = 0 ↔ w < 0 ∧ w ≠ -1 := by
  simp only [wBin, zero_eq, one_eq, ofNat_eq, fin_le, fin_lt, neg_fin, eqv_fin]
  grind

theorem deltaBin_zero_iff (d : ℝ) : deltaBin (fin d) = 0 ↔ (d < 0 ∧ d ≠ -1) ∨ 1 < d := by
  simp only [deltaBin, zero_eq, one_eq, ofScientific_eq, fin_le, fin_lt, neg_fin, eqv_fin]
  norm_num
  grind

/-- The specification of "in the domain of the DIRINT table". -/
def InDirintDomain (k z w d : ℝ) : Prop :=
  (0 ≤ k ∧ k ≤ 1) ∧ 0 ≤ z ∧ (0 ≤ w ∨ w = -1) ∧ ((0 ≤ d ∧ d ≤ 1) ∨ d = -1)

/-- Every entry of the shipped table is between 0.05698 and 21.74424 (all 1260 entries). -/
theorem dirintTable_range (i j k l : ℕ) (hi : i < 6) (hj : j < 6) (hk : k < 7) (hl : l < 5) :
    0.05698 ≤ dirintTable i j k l ∧ dirintTable i j k l ≤ 21.74424 := by
  have h : ∀ (i : Fin 6) (j : Fin 6) (k : Fin 7) (l : Fin 5),
      56980 ≤ ((((dirintTableMicro.getD i.1 []).getD j.1 []).getD k.1 []).getD l.1 0) ∧
      ((((dirintTableMicro.getD i.1 []).getD j.1 []).getD k.1 []).getD l.1 0) ≤ 21744240 := by
    decide
  obtain ⟨h1, h2⟩ := h ⟨i, hi⟩ ⟨j, hj⟩ ⟨k, hk⟩ ⟨l, hl⟩
  simp only at h1 h2
  unfold dirintTable
  set x := ((((dirintTableMicro.getD i []).getD j []).getD k []).getD l 0)
  have h1' : (56980 : ℝ) ≤ x := by exact_mod_cast h1
  have h2' : (x : ℝ) ≤ 21744240 := by exact_mod_cast h2
  constructor
  · rw [le_div_iff₀ (by norm_num)]; norm_num; linarith
  · rw [div_le_iff₀ (by norm_num)]; norm_num; linarith

example := dirintTable_range 2 3 4 1 (by norm_num) (by norm_num) (by norm_num) (by norm_num)

/-- **C26** in the domain the coefficient is the table entry of the four bins; it is never NaN and
never an entry of another cell. -/
theorem dirintCoeffs_entry (k z w d : ℝ) (h : InDirintDomain k z w d) :
    ∃ bk bz bd bw : ℕ, ktPrimeBin (fin k) = bk + 1 ∧ zenithBin (fin z) = bz + 1 ∧
      deltaBin (fin d) = bd + 1 ∧ wBin (fin w) = bw + 1 ∧ bk < 6 ∧ bz < 6 ∧ bd < 7 ∧ bw < 5 ∧
      dirintCoeffs (fin k) (fin z) (fin w) (fin d) = fin (dirintTable bk bz bd bw) := by
  obtain ⟨⟨hk0, hk1⟩, hz, hw, hd⟩ := h
  have ek : ktPrimeBin (fin k) ≠ 0 := by
    rw [Ne, ktPrimeBin_zero_iff]; rintro (h | h) <;> linarith
  have ez : zenithBin (fin z) ≠ 0 := by rw [Ne, zenithBin_zero_iff]; linarith
  have ew : wBin (fin w) ≠ 0 := by
    rw [Ne, wBin_zero_iff]; rintro ⟨h, h'⟩; rcases hw with hw | hw
    · linarith
    · exact h' hw
  have ed : deltaBin (fin d) ≠ 0 := by
    rw [Ne, deltaBin_zero_iff]
    rintro (⟨h, h'⟩ | h) <;> rcases hd with hd | hd
    · linarith [hd.1]
    · exact h' hd
    · linarith [hd.2]
    · linarith
  have l1 := ktPrimeBin_le (fin k)
  have l2 := zenithBin_le (fin z)
  have l3 := deltaBin_le (fin d)
  have l4 := wBin_le (fin w)
  refine ⟨ktPrimeBin (fin k) - 1, zenithBin (fin z) - 1, deltaBin (fin d) - 1, wBin (fin w) - 1,
    by omega, by omega, by omega, by omega, by omega, by omega, by omega, by omega, ?_⟩
  simp only [dirintCoeffs, npIndex, ek, ez, ew, ed, or_self, npwhere_false, if_false]

example := dirintCoeffs_entry 0.5 40 1.5 0.03 (by norm_num [InDirintDomain])

/-- **C26** outside the domain, and for a NaN `kt'`, `w` or `delta`, the coefficient is NaN. -/
theorem dirintCoeffs_nan_iff (k z w d : ℝ) :
    dirintCoeffs (fin k) (fin z) (fin w) (fin d) = nan ↔ ¬ InDirintDomain k z w d := by
  constructor
  · intro h hd
    obtain ⟨_, _, _, _, -, -, -, -, -, -, -, -, e⟩ := dirintCoeffs_entry k z w d hd
    rw [e] at h; simp at h
  · intro h
    simp only [dirintCoeffs]
    rw [npwhere_pos]
    rw [ktPrimeBin_zero_iff, zenithBin_zero_iff, wBin_zero_iff, deltaBin_zero_iff]
    simp only [InDirintDomain] at h
    grind

theorem dirintCoeffs_nan_kt (z w d : Fl) : dirintCoeffs nan z w d = nan := by
  simp only [dirintCoeffs]; rw [npwhere_pos]; left; simp [ktPrimeBin]
theorem dirintCoeffs_nan_delta (k z w : Fl) : dirintCoeffs k z w nan = nan := by
  simp only [dirintCoeffs]; rw [npwhere_pos]; right; right; right; simp [deltaBin]

/-- Non-vacuity and edges: `kt' = 1` is in the top bin, `kt' = 0.24` in the second. -/
example : ktPrimeBin (fin 1) = 6 ∧ ktPrimeBin (fin 0.24) = 2 := by
  refine ⟨(ktPrimeBin_spec _ _ (by norm_num)).mpr (by norm_num),
    (ktPrimeBin_spec _ _ (by norm_num)).mpr (by norm_num)⟩

/-! ### DISC and DIRINT as a whole -/

/-- `disc` never returns a negative DNI, its `kt` is NaN or in [0, 1]: any inputs. -/
theorem disc_nonneg (ghi z doy : Fl) (p : Option Fl) (mc mz ma : Fl) :
    ¬ ((disc ghi z doy p mc mz ma).dni < 0) ∧
    NanOr (disc ghi z doy p mc mz ma).kt (fun k => 0 ≤ k ∧ k ≤ 1) := by
  constructor
  · simp only [disc]
    generalize hx : (discKn _ _ _).1 * extraSpencer doy 1370 = x
    intro h
    by_cases hb : mz < z ∨ ghi < 0 ∨ x < 0
    · rw [npwhere_pos hb] at h; simp at h
    · rw [npwhere_neg hb] at h; exact hb (Or.inr (Or.inr h))
  · exact clearnessIndex_range _ _ _ _ 1 zero_le_one

/-- `disc` is 0 for a sun lower than `max_zenith` and for negative GHI. -/
theorem disc_bad (ghi z doy : Fl) (p : Option Fl) (mc mz ma : Fl) (h : mz < z ∨ ghi < 0) :
    (disc ghi z doy p mc mz ma).dni = fin 0 := by
  simp only [disc]
  rw [npwhere_pos (by tauto)]; rfl

example := disc_bad (fin 10) (fin 89) (fin 172) none (fin 0.065) (fin 87) (fin 12)
  (Or.inl (by simp only [fin_lt]; norm_num))

theorem kasten1966_fin (z : ℝ) (h0 : 0 ≤ z) (h1 : z ≤ 90) :
    ∃ am : ℝ, 0 < am ∧ Atmosphere.kasten1966 (fin z) = fin am := by
  have hpi := Real.pi_pos
  have hc : 0 ≤ Real.cos (z * (π / 180)) := by
    apply Real.cos_nonneg_of_mem_Icc
    constructor
    · have : 0 ≤ z * (π / 180) := by positivity
      linarith
    · nlinarith
  have hb : (0 : ℝ) < 93.885 - z := by norm_num; linarith
  have hden : 0 < Real.cos (z * (π / 180)) + 0.15 * (93.885 - z) ^ (-1.253 : ℝ) := by
    have : (0 : ℝ) < 0.15 * (93.885 - z) ^ (-1.253 : ℝ) :=
      mul_pos (by norm_num) (Real.rpow_pos_of_pos hb _)
    linarith
  refine ⟨1 / (Real.cos (z * (π / 180)) + 0.15 * (93.885 - z) ^ (-1.253 : ℝ)), by positivity, ?_⟩
  have hw : npwhere (90 < fin z) nan (fin z) = fin z := by
    have : ¬ ((90 : ℝ) < z) := not_lt.mpr h1
    simp [npwhere, this]
  simp only [Atmosphere.kasten1966, hw]
  have e : (93.885 : Fl) - fin z = fin (93.885 - z) := by simp
  have e2 : (-1.253 : Fl) = fin (-1.253) := by simp
  rw [e, e2, rpow_fin_pos hb]
  simp only [radians_fin, cos_fin, ofScientific_eq, fin_mul, fin_add, one_eq]
  rw [fin_div hden.ne']

private theorem discKn_fin (k am ma : ℝ) : ∃ x : ℝ, discKn (fin k) (fin am) (fin ma) = (fin x, fin (min am ma)) := by
  simp only [discKn, minimum_fin]
  by_cases h : k ≤ 0.6 <;>
    simp only [ofScientific_eq, ofNat_eq, neg_fin, fin_mul, fin_add, fin_sub, fin_le, h, npwhere_true, npwhere_false,
      exp_fin] <;> exact ⟨_, rfl⟩

/-- On a daytime row (`0 ≤ zenith ≤ 90`) `disc` gives real numbers: `dni ≥ 0`, `kt` in [0, 1], and a
positive airmass not above the limit. -/
theorem disc_day (g z doy p mc mz ma : ℝ) (h0 : 0 ≤ z) (h1 : z ≤ 90) (hp : 0 < p) (hmc : 0 < mc) (hma : 0 < ma) :
    ∃ n k am : ℝ, disc (fin g) (fin z) (fin doy) (some (fin p)) (fin mc) (fin mz) (fin ma)
      = ⟨fin n, fin k, fin am⟩ ∧ 0 ≤ n ∧ 0 ≤ k ∧ k ≤ 1 ∧ 0 < am ∧ am ≤ ma := by
  obtain ⟨f, hE, hf, -⟩ := extraSpencer_fin doy 1370
  have he : 0 < 1370 * f := by norm_num at hf; linarith
  have hE' : extraSpencer (fin doy) 1370 = fin (1370 * f) := hE
  obtain ⟨k, hk, hk0, hk1⟩ := kt_fin g z (1370 * f) mc he hmc
  obtain ⟨am, ham, hka⟩ := kasten1966_fin z h0 h1
  have habs : Atmosphere.absoluteAirmass (fin am) (fin p) = fin (am * p / 101325) := by
    simp [Atmosphere.absoluteAirmass]
  obtain ⟨x, hx⟩ := discKn_fin k (am * p / 101325) ma
  have hd : disc (fin g) (fin z) (fin doy) (some (fin p)) (fin mc) (fin mz) (fin ma)
      = ⟨npwhere (fin mz < fin z ∨ fin g < 0 ∨ fin (x * (1370 * f)) < 0) 0 (fin (x * (1370 * f))), fin k,
        fin (min (am * p / 101325) ma)⟩ := by
    simp only [disc, hE', hk, hka, habs, hx, fin_mul]
  rw [hd]
  have hamp : 0 < min (am * p / 101325) ma := lt_min (by positivity) hma
  by_cases hb : fin mz < fin z ∨ fin g < 0 ∨ fin (x * (1370 * f)) < 0
  · exact ⟨0, k, _, by rw [npwhere_pos hb]; rfl, le_rfl, hk0, hk1, hamp, min_le_right _ _⟩
  · refine ⟨x * (1370 * f), k, _, by rw [npwhere_neg hb], ?_, hk0, hk1, hamp, min_le_right _ _⟩
    push Not at hb
    simpa using hb.2.2

example := disc_day 500 40 172 101325 0.065 87 12 (by norm_num) (by norm_num) (by norm_num) (by norm_num) (by norm_num)

private theorem ktp_fin (k am : ℝ) (ham : 0 < am) :
    ∃ x : ℝ, clearnessIndexZenithIndependent (fin k) (fin am) 1 = fin x ∧ 0 ≤ x ∧ x ≤ 1 := by
  obtain ⟨f, hf, hf0, -⟩ := ktPrimeFactor_range am ham
  have hne : f ≠ 0 := by norm_num at hf0; linarith
  refine ⟨min (max (k / f) 0) 1, ?_, le_min (le_max_right _ _) zero_le_one, min_le_right _ _⟩
  simp [clearnessIndexZenithIndependent, hf, hne]

/-- **C26** DIRINT on a daytime row is DISC's DNI times a table entry: a real number, between 0.05698
and 21.74424 times DISC, provided some adjacent row is daytime too (or the stability index is not used).
The dew point, when given, is real. -/
theorem dirint_day (n : ℕ) (g z doy : ℕ → ℝ) (p mc mz : ℝ) (hp : 0 < p) (hmc : 0 < mc) (use : Bool)
    (dew : Option (ℕ → ℝ)) (i : ℕ) (hi : 0 ≤ z i ∧ z i ≤ 90)
    (hnb : use = true → ∃ j, (j = i + 1 ∧ j < n ∨ j + 1 = i) ∧ 0 ≤ z j ∧ z j ≤ 90) :
    ∃ d c : ℝ, (disc (fin (g i)) (fin (z i)) (fin (doy i)) (some (fin p)) (fin mc) (fin mz)).dni = fin d ∧
      0 ≤ d ∧ 0.05698 ≤ c ∧ c ≤ 21.74424 ∧
      dirint n (fun j => fin (g j)) (fun j => fin (z j)) (fun j => fin (doy j)) (some (fin p)) use
        (dew.map (fun t j => fin (t j))) (fin mc) (fin mz) i = fin (d * c) := by
  have hrow : ∀ j, 0 ≤ z j ∧ z j ≤ 90 → ∃ d k am : ℝ,
      disc (fin (g j)) (fin (z j)) (fin (doy j)) (some (fin p)) (fin mc) (fin mz) = ⟨fin d, fin k, fin am⟩ ∧
      0 ≤ d ∧ 0 < am := by
    intro j hj
    obtain ⟨d, k, am, h, h1, -, -, h2, -⟩ := disc_day (g j) (z j) (doy j) p mc mz 12 hj.1 hj.2 hp hmc (by norm_num)
    exact ⟨d, k, am, h, h1, h2⟩
  set D : ℕ → Disc := fun j =>
    disc (fin (g j)) (fin (z j)) (fin (doy j)) (some (fin p)) (fin mc) (fin mz) with hD
  set ktp : Series := fun j => clearnessIndexZenithIndependent (D j).kt (D j).airmass 1 with hktp
  have hktr : ∀ j, NanOr (ktp j) (fun k => 0 ≤ k ∧ k ≤ 1) := fun j => clearnessIndexZI_range _ _ 1 zero_le_one
  have hktf : ∀ j, 0 ≤ z j ∧ z j ≤ 90 → ∃ x : ℝ, ktp j = fin x ∧ 0 ≤ x ∧ x ≤ 1 := by
    intro j hj
    obtain ⟨d, k, am, h, -, ham⟩ := hrow j hj
    simp only [hktp, hD, h]
    exact ktp_fin k am ham
  obtain ⟨d, k, am, hd, hd0, ham⟩ := hrow i hi
  obtain ⟨x, hx, hx0, hx1⟩ := hktf i hi
  -- the stability index
  have hdel : ∃ e : ℝ, deltaKtPrime n ktp use i = fin e ∧ ((0 ≤ e ∧ e ≤ 1) ∨ e = -1) := by
    cases use with
    | false => exact ⟨-1, by simp [deltaKtPrime], Or.inr rfl⟩
    | true =>
      have habs : ∀ y : Fl, NanOr y (fun k => 0 ≤ k ∧ k ≤ 1) →
          NanOr (Fl.abs (fin x - y)) (fun k => 0 ≤ k ∧ k ≤ 1) := by
        rintro y (rfl | ⟨r, rfl, hr0, hr1⟩)
        · simp
        · simp only [fin_sub, abs_fin, nanOr_fin]
          exact ⟨abs_nonneg _, by rw [abs_le]; constructor <;> linarith⟩
      have hA := habs (if i + 1 < n then ktp (i + 1) else nan) (by
        split_ifs <;> [exact hktr _; exact Or.inl rfl])
      have hB := habs (if i = 0 then nan else ktp (i - 1)) (by
        split_ifs <;> [exact Or.inl rfl; exact hktr _])
      have hne : Fl.abs (fin x - if i + 1 < n then ktp (i + 1) else nan) ≠ nan ∨
          Fl.abs (fin x - if i = 0 then nan else ktp (i - 1)) ≠ nan := by
        obtain ⟨j, hj, hjz⟩ := hnb rfl
        obtain ⟨y, hy, -, -⟩ := hktf j hjz
        rcases hj with ⟨rfl, hjn⟩ | rfl
        · left; rw [if_pos hjn, hy]; simp
        · right; rw [if_neg (by omega), Nat.add_sub_cancel, hy]; simp
      simp only [deltaKtPrime, if_true, hx]
      revert hA hB hne
      generalize Fl.abs (fin x - if i + 1 < n then ktp (i + 1) else nan) = a
      generalize Fl.abs (fin x - if i = 0 then nan else ktp (i - 1)) = b
      intro hA hB hne
      rcases hA with rfl | ⟨r, rfl, hr0, hr1⟩ <;> rcases hB with rfl | ⟨r', rfl, hr0', hr1'⟩
      · simp at hne
      · exact ⟨r', by simp [nanmean2], Or.inl ⟨hr0', hr1'⟩⟩
      · exact ⟨r, by simp [nanmean2], Or.inl ⟨hr0, hr1⟩⟩
      · exact ⟨(r + r') / 2, by simp [nanmean2], Or.inl ⟨by linarith, by linarith⟩⟩
  obtain ⟨e, he, hedom⟩ := hdel
  have hw : ∃ w : ℝ, tempDewW (dew.map (fun t j => fin (t j))) i = fin w ∧ (0 ≤ w ∨ w = -1) := by
    cases dew with
    | none => exact ⟨-1, by simp [tempDewW], Or.inr rfl⟩
    | some t => exact ⟨Real.exp (0.07 * t i - 0.075), by simp [tempDewW], Or.inl (Real.exp_pos _).le⟩
  obtain ⟨w, hw, hwdom⟩ := hw
  obtain ⟨bk, bz, bd, bw, -, -, -, -, b1, b2, b3, b4, hc⟩ :=
    dirintCoeffs_entry x (z i) w e ⟨⟨hx0, hx1⟩, hi.1, hwdom, hedom⟩
  obtain ⟨r1, r2⟩ := dirintTable_range bk bz bd bw b1 b2 b3 b4
  refine ⟨d, dirintTable bk bz bd bw, by rw [hd], hd0, r1, r2, ?_⟩
  have hdef : dirint n (fun j => fin (g j)) (fun j => fin (z j)) (fun j => fin (doy j)) (some (fin p)) use
        (dew.map (fun t j => fin (t j))) (fin mc) (fin mz) i
      = (D i).dni * dirintCoeffs (ktp i) (fin (z i)) (tempDewW (dew.map (fun t j => fin (t j))) i)
        (deltaKtPrime n ktp use i) := rfl
  rw [hdef, hx, he, hw, hc]
  have : (D i).dni = fin d := by simp only [hD]; rw [hd]
  rw [this, fin_mul]

example := dirint_day 3 (fun i => 400 + 10 * (i : ℝ)) (fun i => 40 + (i : ℝ)) (fun _ => 172) 101325 0.065 87 (by norm_num)
  (by norm_num) true (some fun _ => 12) 1 (by norm_num) (fun _ => ⟨2, Or.inl (by norm_num), by norm_num, by norm_num⟩)

/-- After sunset (`zenith > 90`) DIRINT is NaN (its airmass is), although DISC is 0 there. -/
theorem dirint_night (n : ℕ) (g doy : Series) (zs : Series) (z : ℝ) (p mc mz : Fl) (use : Bool) (dew : Option Series)
    (i : ℕ) (hz : zs i = fin z) (h : 90 < z) :
    dirint n g zs doy (some p) use dew mc mz i = nan := by
  have hk : Atmosphere.kasten1966 (fin z) = nan := by
    have : (90 : Fl) < fin z := h
    simp [Atmosphere.kasten1966, npwhere_pos, h, rpow_nan_left]
  have ham : ∀ k, (discKn k nan 12).2 = nan := by intro k; simp [discKn]
  simp only [dirint, disc, hz, hk, Atmosphere.absoluteAirmass, nan_mul, nan_div, ham]
  have : clearnessIndexZenithIndependent (clearnessIndex (g i) (fin z) (extraSpencer (doy i) 1370) mc 1) nan 1 = nan := by
    simp [clearnessIndexZenithIndependent, ktKtPrimeFactor]
  rw [this, dirintCoeffs_nan_kt, mul_nan]

example := dirint_night 3 (fun _ => fin 0) (fun _ => fin 172) (fun _ => fin 95) 95 (fin 101325) (fin 0.065) (fin 87) true none 1 rfl
  (by norm_num)

/-- A one-row series has no neighbour: with the (default) stability index DIRINT is NaN. -/
theorem dirint_single (g z doy : Series) (p : Option Fl) (dew : Option Series) (mc mz : Fl) :
    dirint 1 g z doy p true dew mc mz 0 = nan := by
  have : ∀ k : Series, deltaKtPrime 1 k true 0 = nan := by intro k; simp [deltaKtPrime, nanmean2]
  simp only [dirint, this, dirintCoeffs_nan_delta, mul_nan]

/-! ## C27 complete_irradiance -/

/-- **C27** the call fails exactly when it is not the case that exactly one component is missing. -/
theorem complete_error_iff (z : Fl) (ghi dhi dni : Option Fl) (c : Option Fl) :
    (completeIrradiance z ghi dhi dni c = .error .valueError) ↔
      ¬ ((ghi = none ∧ dhi ≠ none ∧ dni ≠ none) ∨ (ghi ≠ none ∧ dhi = none ∧ dni ≠ none) ∨
         (ghi ≠ none ∧ dhi ≠ none ∧ dni = none)) := by
  cases ghi <;> cases dhi <;> cases dni <;> simp [completeIrradiance]

/-- **C27** the given components come back unchanged. -/
theorem complete_keeps (z : Fl) (ghi dhi dni : Option Fl) (c : Option Fl) (r : Components)
    (h : completeIrradiance z ghi dhi dni c = .ok r) :
    (∀ x, ghi = some x → r.ghi = x) ∧ (∀ x, dhi = some x → r.dhi = x) ∧ (∀ x, dni = some x → r.dni = x) := by
  cases ghi <;> cases dhi <;> cases dni <;> simp [completeIrradiance] at h <;> subst h <;> simp

example := complete_keeps (fin 40) none (some (fin 100)) (some (fin 500)) none _ rfl

/-- **C27** closure when GHI or DHI was missing: always. -/
theorem complete_closes (z : ℝ) (ghi dhi dni : Option ℝ) (c : Option Fl) (r : Components)
    (hn : dni ≠ none)
    (h : completeIrradiance (fin z) (ghi.map fin) (dhi.map fin) (dni.map fin) c = .ok r) :
    ∃ a b n : ℝ, r = ⟨fin a, fin b, fin n⟩ ∧ a = b + n * cosDeg z := by
  cases ghi <;> cases dhi <;> cases dni <;> simp [completeIrradiance, cosd_deg] at h hn <;> subst h
  · exact ⟨_, _, _, rfl, rfl⟩
  · exact ⟨_, _, _, rfl, by ring⟩

example := complete_closes 40 none (some 100) (some 500) none _ (by simp) rfl

/-- The real DNI between GHI and DHI. -/
def trueDni (g d z : ℝ) : ℝ := (g - d) / cosDeg z

/-- **C27** when DNI was missing, what is returned is, by case: the closing value; NaN if that value is
negative or the sun is at or below the 88 degree threshold (unless the value is 0); the clear-sky limit
between 80 and 88 degrees if the value exceeds it. -/
theorem complete_dni (g d z : ℝ) (hz : cosDeg z ≠ 0) (clear : Option ℝ) :
    completeIrradiance (fin z) (some (fin g)) (some (fin d)) none (clear.map fin) = .ok ⟨fin g, fin d,
      if trueDni g d z < 0 then nan
      else if 88 ≤ z ∧ trueDni g d z ≠ 0 then nan
      else match clear with
        | none => fin (trueDni g d z)
        | some c => if 80 ≤ z ∧ z < 88 ∧ c * 1.1 < trueDni g d z then fin (c * 1.1) else fin (trueDni g d z)⟩ := by
  have h1 : (fin g - fin d) / cosd (fin z) = fin (trueDni g d z) := by
    rw [cosd_deg, fin_sub, fin_div hz]; rfl
  simp only [completeIrradiance, dniFrom, h1]
  set t := trueDni g d z
  congr 2
  by_cases hn : t < 0
  · have hlt : ¬ (t = 0) := hn.ne
    have : fin t < (0 : Fl) := hn
    by_cases hz88 : (88 : Fl) ≤ fin z <;> cases clear <;> simp [hn, hz88]
  · have h' : ¬ (fin t < (0 : Fl)) := hn
    rw [if_neg hn, if_neg h']
    have e : ((88 : Fl) ≤ fin z ∧ ¬ eqv (fin t) 0) ↔ (88 ≤ z ∧ t ≠ 0) := by simp
    simp only [e]
    by_cases h2 : 88 ≤ z ∧ t ≠ 0
    · rw [if_pos h2, if_pos h2]; cases clear <;> simp
    · rw [if_neg h2, if_neg h2]
      cases clear with
      | none => rfl
      | some c => by_cases hh : 80 ≤ z ∧ z < 88 ∧ c * 1.1 < t <;> simp [hh]

example := complete_dni 500 100 40 (cosDeg_ne_of (by norm_num) (by norm_num)) (some 900)

/-- **C27** so wherever the returned DNI is a number and was not limited, the triple closes. -/
theorem complete_dni_closes (g d z n : ℝ) (hz : cosDeg z ≠ 0) (r : Components)
    (h : completeIrradiance (fin z) (some (fin g)) (some (fin d)) none none = .ok r) (hn : r.dni = fin n) :
    g = d + n * cosDeg z ∧ 0 ≤ n := by
  have h2 := complete_dni g d z hz none
  simp only [Option.map_none] at h2
  rw [h2] at h
  simp only [Except.ok.injEq] at h
  subst h
  simp only at hn
  split_ifs at hn with h1 h3
  simp only [fin_inj] at hn
  subst hn
  refine ⟨?_, not_lt.mp h1⟩
  unfold trueDni; field_simp; ring

example : (500 : ℝ) = 250 + 500 * cosDeg 60 ∧ (0 : ℝ) ≤ 500 :=
  complete_dni_closes 500 250 60 500 (cosDeg_ne_of (by norm_num) (by norm_num)) _
    (complete_dni 500 250 60 (cosDeg_ne_of (by norm_num) (by norm_num)) none)
    (by norm_num [trueDni, cosDeg_at60])

/-! ### Transmittance models -/

/-- `campbell_norman` and `_liujordan` close by construction, and for a transmittance in [0, 1] and a sun
above the horizon all three components are non-negative and GHI is at most the horizontal extraterrestrial
irradiance. -/
theorem liujordan_closes (z tau am e : ℝ) (hz : 0 ≤ cosDeg z) (ht0 : 0 < tau) (ht1 : tau ≤ 1) (ham : 0 < am)
    (he : 0 ≤ e) :
    ∃ g d n : ℝ, liujordan (fin z) (fin tau) (fin am) (fin e) = ⟨fin g, fin d, fin n⟩ ∧
      g = d + n * cosDeg z ∧ 0 ≤ d ∧ 0 ≤ n ∧ n ≤ e ∧ g ≤ e * cosDeg z := by
  have hp : 0 < tau ^ am := Real.rpow_pos_of_pos ht0 _
  have hp1 : tau ^ am ≤ 1 := Real.rpow_le_one ht0.le ht1 ham.le
  refine ⟨0.3 * (1 - tau ^ am) * e * cosDeg z + e * tau ^ am * cosDeg z, 0.3 * (1 - tau ^ am) * e * cosDeg z,
    e * tau ^ am, ?_, rfl, ?_, by positivity, ?_, ?_⟩
  · simp [liujordan, rpow_fin_pos ht0, cosDeg]
  · have : 0 ≤ 1 - tau ^ am := by linarith
    positivity
  · nlinarith
  · have h1 : 0 ≤ e * cosDeg z := by positivity
    nlinarith [mul_nonneg h1 (sub_nonneg.mpr hp1)]

example := liujordan_closes 40 0.7 1.3 1367 (cosDeg_pos_of (by norm_num) (by norm_num)).le (by norm_num) (by norm_num) (by norm_num)
  (by norm_num)

/-- `campbell_norman` with the sun above the horizon: the components close, are non-negative, and GHI is
at most the horizontal extraterrestrial irradiance. -/
theorem campbellNorman_closes (z tau p e : ℝ) (hz0 : 0 ≤ z) (hz : z < 90) (ht0 : 0 < tau) (ht1 : tau ≤ 1)
    (hp : 0 < p) (he : 0 ≤ e) :
    ∃ g d n : ℝ, campbellNorman (fin z) (fin tau) (fin p) (fin e) = ⟨fin g, fin d, fin n⟩ ∧
      n = e * tau ^ (p / 101325 / cosDeg z) ∧
      g = d + n * cosDeg z ∧ 0 ≤ d ∧ 0 ≤ n ∧ n ≤ e ∧ g ≤ e * cosDeg z := by
  have hpi := Real.pi_pos
  have hc : 0 < cosDeg z := by
    apply Real.cos_pos_of_mem_Ioo
    constructor <;> nlinarith
  have ham : 0 < p / 101325 / cosDeg z := by positivity
  have hpp : 0 < tau ^ (p / 101325 / cosDeg z) := Real.rpow_pos_of_pos ht0 _
  have hp1 : tau ^ (p / 101325 / cosDeg z) ≤ 1 := Real.rpow_le_one ht0.le ht1 ham.le
  have e1 : Atmosphere.absoluteAirmass (Atmosphere.simpleAirmass (fin z)) (fin p) =
      fin (p / 101325 / cosDeg z) := by
    have hc' : Real.cos (z * (π / 180)) ≠ 0 := hc.ne'
    have : ¬ (90 : ℝ) < z := by linarith
    simp [Atmosphere.absoluteAirmass, Atmosphere.simpleAirmass, npwhere, this, hc', radians, cosDeg]
    field_simp
  set q := tau ^ (p / 101325 / cosDeg z) with hq
  refine ⟨0.3 * (1 - q) * e * cosDeg z + e * q * cosDeg z, 0.3 * (1 - q) * e * cosDeg z,
    e * q, ?_, rfl, rfl, ?_, by positivity, ?_, ?_⟩
  · simp [campbellNorman, e1, rpow_fin_pos ht0, cosDeg, hq]
  · have : 0 ≤ 1 - q := by linarith
    positivity
  · nlinarith
  · have h1 : 0 ≤ e * cosDeg z := by positivity
    nlinarith [mul_nonneg h1 (sub_nonneg.mpr hp1)]

/-- `campbell_norman` with the sun below the horizon is NaN in every component (the simple airmass model is
undefined there), except for a transmittance of exactly 1. -/
theorem campbellNorman_night (z tau p e : ℝ) (hz : 90 < z) (ht : tau ≠ 1) :
    campbellNorman (fin z) (fin tau) (fin p) (fin e) = ⟨nan, nan, nan⟩ := by
  simp [campbellNorman, Atmosphere.absoluteAirmass, Atmosphere.simpleAirmass, npwhere, hz, radians, Fl.rpow, ht]

example : ∃ g d n : ℝ, campbellNorman (fin 60) (fin 0.6) (fin 101325) (fin 1367) = ⟨fin g, fin d, fin n⟩ := by
  obtain ⟨g, d, n, h, -⟩ := campbellNorman_closes 60 0.6 101325 1367 (by norm_num) (by norm_num) (by norm_num)
    (by norm_num) (by norm_num) (by norm_num)
  exact ⟨g, d, n, h⟩

/-- `diffuse_par_spitters` maps a diffuse fraction in [0, 1] to a fraction in [0, 1]: 0 to 0, 1 to 1. -/
theorem spitters_range (z f : ℝ) (hz : 0 ≤ z ∧ z ≤ 90) (h0 : 0 ≤ f) (h1 : f ≤ 1) :
    ∃ r : ℝ, diffuseParSpitters (fin z) (fin f) = fin r ∧ 0 ≤ r ∧ r ≤ 1 := by
  have hpi := Real.pi_pos
  have hs : 0 ≤ sinDeg z := by
    apply Real.sin_nonneg_of_nonneg_of_le_pi
    · have := hz.1; positivity
    · nlinarith [hz.2]
  have hf : 0 ≤ 1 - f ^ 2 := by nlinarith
  have hden : 1 ≤ 1 + (1 - f ^ 2) * cosDeg z ^ 2 * sinDeg z ^ 3 := by
    have : 0 ≤ (1 - f ^ 2) * cosDeg z ^ 2 * sinDeg z ^ 3 := by positivity
    linarith
  refine ⟨(1 + 0.3 * (1 - f ^ 2)) * f / (1 + (1 - f ^ 2) * cosDeg z ^ 2 * sinDeg z ^ 3), ?_, ?_, ?_⟩
  · have : 1 + (1 - f ^ 2) * Real.cos (z * (π / 180)) ^ 2 * Real.sin (z * (π / 180)) ^ 3 ≠ 0 := by
      have := hden; simp only [cosDeg, sinDeg] at this; linarith
    simp [diffuseParSpitters, cosDeg, sinDeg, this]
  · apply div_nonneg _ (by linarith)
    have : (0 : ℝ) ≤ 1 + 0.3 * (1 - f ^ 2) := by norm_num; linarith
    positivity
  · rw [div_le_one (by linarith)]
    have : (1 + 0.3 * (1 - f ^ 2)) * f ≤ 1 := by nlinarith [mul_nonneg h0 hf, mul_nonneg (sub_nonneg.mpr h1) h0]
    linarith

example := spitters_range 40 0.3 (by norm_num) (by norm_num) (by norm_num)

end Pvlib.Props.Decomposition
end
