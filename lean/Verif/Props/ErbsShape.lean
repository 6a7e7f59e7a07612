import Verif.Props.Decomposition
import Mathlib.Analysis.Calculus.ContDiff.Deriv
import Mathlib.Analysis.Calculus.Deriv.Pow
import Mathlib.Analysis.Calculus.Deriv.MeanValue
import Mathlib.MeasureTheory.Integral.IntervalIntegral.FundThmCalculus

/-! # Properties C195, C196: the shape of the Erbs family -/

noncomputable section
open scoped Classical
namespace Pvlib.Props.ErbsShape
open Fl Pvlib.Irradiance Pvlib.Spec Pvlib.Props.Decomposition

/-! ### The diffuse fractions in real numbers -/

/-- The polynomial of Erbs, Klein and Duffie. -/
def ePoly (k : ℝ) : ℝ := 0.9511 - 0.1604 * k + 4.388 * k ^ 2 - 16.638 * k ^ 3 + 12.336 * k ^ 4

/-- Driesse's polynomial. -/
def dPoly (k : ℝ) : ℝ :=
  0.946296633571001 - 0.11390583806313881 * k + 4.246926715218317 * k ^ 2 - 16.470508424697307 * k ^ 3 + 12.26911439571261 * k ^ 4

/-- Its derivative. -/
def dSlope (k : ℝ) : ℝ := -0.11390583806313881 + 2 * 4.246926715218317 * k - 3 * 16.470508424697307 * k ^ 2 + 4 * 12.26911439571261 * k ^ 3

theorem erbsDf_real (k : ℝ) : erbsDf (fin k) = fin (if 0.8 < k then 0.165 else if 0.22 < k then ePoly k else 1 - 0.09 * k) := by
  simp only [erbsDf, ofScientific_eq, one_eq, fin_mul, fin_sub, fin_add, fin_pow, fin_lt, fin_le]
  by_cases ha : (0.8 : ℝ) < k
  · rw [npwhere_pos ha, if_pos ha]
  · rw [npwhere_neg ha, if_neg ha]
    by_cases hb : (0.22 : ℝ) < k
    · rw [npwhere_pos ⟨hb, not_lt.mp ha⟩, if_pos hb]; rfl
    · rw [npwhere_neg (fun h => hb h.1), if_neg hb]

theorem driesseDf_real (k : ℝ) : erbsDriesseDf (fin k) = fin (if 0.792 < k then 0.165 else if 0.216 < k then dPoly k else 1 - 0.09 * k) := by
  simp only [erbsDriesseDf, ofScientific_eq, one_eq, fin_mul, fin_sub, fin_lt]
  by_cases ha : (0.792 : ℝ) < k
  · rw [npwhere_pos ha, if_pos ha]
  · rw [npwhere_neg ha, if_neg ha]
    by_cases hb : (0.216 : ℝ) < k
    · rw [npwhere_pos hb, if_pos hb]
      simp [polyval, dPoly]; ring
    · rw [npwhere_neg hb, if_neg hb]

theorem orgillDf_real (k : ℝ) : orgillHollandsDf (fin k) = fin (if 0.75 < k then 0.177 else if 0.35 ≤ k then 1.557 - 1.84 * k else 1 - 0.249 * k) := by
  simp only [orgillHollandsDf, ofScientific_eq, one_eq, fin_mul, fin_sub, fin_lt, fin_le]
  by_cases ha : (0.75 : ℝ) < k
  · rw [npwhere_pos ha, if_pos ha]
  · rw [npwhere_neg ha, if_neg ha]
    by_cases hb : (0.35 : ℝ) ≤ k
    · rw [npwhere_pos ⟨hb, not_lt.mp ha⟩, if_pos hb]
    · rw [npwhere_neg (fun h => hb h.1), if_neg hb]

/-! ### Positivity from Bernstein coefficients -/

private theorem bern4 (b0 b1 b2 b3 b4 l u x : ℝ) (hl : l ≤ x) (hu : x ≤ u) (h0 : 0 ≤ b0 := by norm_num) (h1 : 0 ≤ b1 := by norm_num)
    (h2 : 0 ≤ b2 := by norm_num) (h3 : 0 ≤ b3 := by norm_num) (h4 : 0 ≤ b4 := by norm_num) :
    0 ≤ b0 * (u - x) ^ 4 + 4 * b1 * (u - x) ^ 3 * (x - l) + 6 * b2 * (u - x) ^ 2 * (x - l) ^ 2 + 4 * b3 * (u - x) * (x - l) ^ 3 +
      b4 * (x - l) ^ 4 := by
  have := sub_nonneg.mpr hl; have := sub_nonneg.mpr hu
  positivity

private theorem bern3 (b0 b1 b2 b3 l u x : ℝ) (hl : l ≤ x) (hu : x ≤ u) (h0 : 0 ≤ b0 := by norm_num) (h1 : 0 ≤ b1 := by norm_num)
    (h2 : 0 ≤ b2 := by norm_num) (h3 : 0 ≤ b3 := by norm_num) :
    0 ≤ b0 * (u - x) ^ 3 + 3 * b1 * (u - x) ^ 2 * (x - l) + 3 * b2 * (u - x) * (x - l) ^ 2 + b3 * (x - l) ^ 3 := by
  have := sub_nonneg.mpr hl; have := sub_nonneg.mpr hu
  positivity

private theorem polys_close {k : ℝ} (h0 : 0.216 ≤ k) (h1 : k ≤ 0.8) : |ePoly k - dPoly k| ≤ 0.00049 := by
  unfold ePoly dPoly
  rw [abs_le]
  norm_num at h0 h1 ⊢
  rcases le_total k (2/5) with h2 | h2
  · constructor
    · have := bern4 (2464409382600317529/9733600000000000000) (695965215862329/1557376000000000000) (1968235437831/31147520000000000) (256612055290159/2491801600000000) (2828672496833/12459008000000) (27/125) (2/5) k h0 h2
      linarith
    · have := bern4 (134724834200192696833/223872800000000000000) (30608992800035166433/35819648000000000000) (612454730584929887/716392960000000000) (43097922728326343/57311436800000000) (179940532572841/286557184000000) (27/125) (2/5) k h0 h2
      linarith
  · rcases le_total k (3/5) with h3 | h3
    · constructor
      · have := bern4 (65059467427159/400000000000000) (829598183493713/3200000000000000) (597984144014049/1600000000000000) (1377687619248951/3200000000000000) (336722919276111/800000000000000) (2/5) (3/5) k h2 h3
        linarith
      · have := bern4 (179940532572841/400000000000000) (1130401816506287/3200000000000000) (382015855985951/1600000000000000) (582312380751049/3200000000000000) (153277080723889/800000000000000) (2/5) (3/5) k h2 h3
        linarith
    · constructor
      · have := bern4 (336722919276111/800000000000000) (1316095734959937/3200000000000000) (107278451945007/320000000000000) (117818706104603/640000000000000) (799878153853/50000000000000) (3/5) (4/5) k h3 h1
        linarith
      · have := bern4 (153277080723889/800000000000000) (643904265040063/3200000000000000) (88721548054993/320000000000000) (274181293895397/640000000000000) (29825121846147/50000000000000) (3/5) (4/5) k h3 h1
        linarith

/-- The slope of `(1 - df) k` is positive. -/
private theorem eF_pos {k : ℝ} (h0 : 0.22 ≤ k) (h1 : k ≤ 0.8) :
    0 ≤ 1 - 0.9511 + 2 * 0.1604 * k - 3 * 4.388 * k ^ 2 + 4 * 16.638 * k ^ 3 - 5 * 12.336 * k ^ 4 := by
  norm_num at h0 h1 ⊢
  have := bern4 (7264843/17682025) (17087987/7072810) (7629314/707281) (21793900/707281) (4319225/707281) (11/50) (4/5) k h0 h1
  linarith

private theorem dF_pos {k : ℝ} (h0 : 0.216 ≤ k) (h1 : k ≤ 0.792) :
    0 ≤ 1 - 0.946296633571001 + 2 * 0.11390583806313881 * k - 3 * 4.246926715218317 * k ^ 2 + 4 * 16.470508424697307 * k ^ 3 -
      5 * 12.26911439571261 * k ^ 4 := by
  norm_num at h0 h1 ⊢
  have := bern4 (759374999999968008211/2149908480000000000000) (4900171062856360328197/2149908480000000000000) (22841146271783750849719/2149908480000000000000) (66600381884110189225513/2149908480000000000000) (16308593750000645698651/2149908480000000000000) (27/125) (99/125) k h0 h1
  linarith

private theorem dSlope_neg {k : ℝ} (h0 : 0.216 ≤ k) (h1 : k ≤ 0.792) : dSlope k ≤ 0 := by
  unfold dSlope
  norm_num at h0 h1 ⊢
  have := bern3 (140624999999995288109/298598400000000000000) (1935462561904394933933/298598400000000000000) (6773304799206750219821/298598400000000000000) (52322477/298598400000000000000) (27/125) (99/125) k h0 h1
  linarith

/-! ### C195 -/

/-- **C195**: as documented, the diffuse fractions of `erbs_driesse` and `erbs` differ by less than 0.0005, at every clearness index. -/
theorem driesse_near_erbs (k : ℝ) : ∃ d e : ℝ, erbsDriesseDf (fin k) = fin d ∧ erbsDf (fin k) = fin e ∧ |d - e| < 0.0005 := by
  refine ⟨_, _, driesseDf_real k, erbsDf_real k, ?_⟩
  by_cases h1 : (0.8 : ℝ) < k
  · rw [if_pos (by norm_num at *; linarith), if_pos h1]; norm_num
  rw [if_neg h1]
  by_cases h2 : (0.792 : ℝ) < k
  · rw [if_pos h2, if_pos (by norm_num at *; linarith)]
    unfold ePoly
    rw [abs_lt]
    push Not at h1
    norm_num at h1 h2 ⊢
    have a1 : 0 ≤ k - 99/125 := by linarith
    have a2 : 0 ≤ 4/5 - k := by linarith
    have a3 := mul_nonneg a1 a2
    constructor <;> nlinarith [mul_nonneg a3 a1, mul_nonneg a3 a2, mul_nonneg a3 a3]
  rw [if_neg h2]
  push Not at h1 h2
  by_cases h3 : (0.22 : ℝ) < k
  · rw [if_pos (by norm_num at *; linarith), if_pos h3, abs_sub_comm]
    have := polys_close (k := k) (by norm_num at *; linarith) h1
    norm_num at *; linarith
  rw [if_neg h3]
  push Not at h3
  by_cases h4 : (0.216 : ℝ) < k
  · rw [if_pos h4]
    unfold dPoly
    rw [abs_lt]
    norm_num at h3 h4 ⊢
    have a1 : 0 ≤ k - 27/125 := by linarith
    have a2 : 0 ≤ 11/50 - k := by linarith
    have a3 := mul_nonneg a1 a2
    constructor <;> nlinarith [mul_nonneg a3 a1, mul_nonneg a3 a2, mul_nonneg a3 a3]
  · rw [if_neg h4]; norm_num

/-- **C195**: as documented, `erbs_driesse` joins its three pieces continuously and with continuous slope, up to the rounding of its
coefficients: some continuously differentiable function differs from its diffuse fraction by at most 2e-14. -/
theorem driesse_smooth : ∃ f : ℝ → ℝ, ContDiff ℝ 1 f ∧ ∀ k : ℝ, 0 ≤ k → k ≤ 1 → ∃ d : ℝ, erbsDriesseDf (fin k) = fin d ∧ |d - f k| ≤ 2e-14 := by
  let clamp (t : ℝ) : ℝ := max 0.216 (min t 0.792)
  let s (t : ℝ) : ℝ := dSlope (clamp t)
  have hs : Continuous s := by unfold s clamp dSlope; fun_prop
  let f (k : ℝ) : ℝ := dPoly 0.216 + ∫ t in (0.216 : ℝ)..k, s t
  have hd : ∀ k, HasDerivAt f (s k) k := fun k =>
    (intervalIntegral.integral_hasDerivAt_right (hs.intervalIntegrable _ _) (hs.stronglyMeasurableAtFilter _ _) hs.continuousAt).const_add _
  have hp : ∀ k, HasDerivAt dPoly (dSlope k) k := by
    intro k
    unfold dPoly dSlope
    have e := ((((hasDerivAt_id k).const_mul 0.11390583806313881).const_sub 0.946296633571001).add ((hasDerivAt_pow 2 k).const_mul 4.246926715218317)).sub
      ((hasDerivAt_pow 3 k).const_mul 16.470508424697307) |>.add ((hasDerivAt_pow 4 k).const_mul 12.26911439571261)
    refine e.congr_deriv ?_
    norm_num
    ring
  refine ⟨f, ?_, ?_⟩
  · rw [contDiff_one_iff_deriv]
    refine ⟨fun k => (hd k).differentiableAt, ?_⟩
    rw [show deriv f = s from funext fun k => (hd k).deriv]
    exact hs
  · intro k h0 h1
    refine ⟨_, driesseDf_real k, ?_⟩
    have slopeS : Continuous dSlope := by unfold dSlope; fun_prop
    by_cases h2 : k ≤ 0.216
    · rw [if_neg (by norm_num at *; linarith), if_neg (not_lt.mpr h2)]
      have e : f k = dPoly 0.216 + (k - 0.216) * dSlope 0.216 := by
        show dPoly 0.216 + _ = _
        congr 1
        rw [intervalIntegral.integral_congr (g := fun _ => dSlope 0.216)]
        · simp
        · intro t ht
          rw [Set.uIcc_of_ge h2] at ht
          show dSlope (clamp t) = _
          congr 1
          show max _ _ = _
          exact max_eq_left ((min_le_left _ _).trans ht.2)
      rw [e]
      unfold dPoly dSlope
      rw [abs_le]
      norm_num at *
      constructor <;> linarith
    · push Not at h2
      have mid : ∀ u : ℝ, 0.216 ≤ u → u ≤ 0.792 → ∫ t in (0.216 : ℝ)..u, s t = dPoly u - dPoly 0.216 := by
        intro u hu hu'
        rw [intervalIntegral.integral_congr (g := dSlope), intervalIntegral.integral_eq_sub_of_hasDerivAt (fun t _ => hp t)
          (slopeS.intervalIntegrable _ _)]
        intro t ht
        rw [Set.uIcc_of_le hu] at ht
        show dSlope (clamp t) = _
        congr 1
        show max _ (min _ _) = _
        rw [min_eq_left (ht.2.trans hu'), max_eq_right ht.1]
      by_cases h3 : k ≤ 0.792
      · rw [if_neg (not_lt.mpr h3), if_pos h2]
        show |dPoly k - (dPoly 0.216 + ∫ t in (0.216 : ℝ)..k, s t)| ≤ _
        rw [mid k h2.le h3, show dPoly k - (dPoly 0.216 + (dPoly k - dPoly 0.216)) = 0 by ring]
        norm_num
      · push Not at h3
        rw [if_pos h3]
        have e : f k = dPoly 0.792 + (k - 0.792) * dSlope 0.792 := by
          show dPoly 0.216 + ∫ t in (0.216 : ℝ)..k, s t = _
          rw [← intervalIntegral.integral_add_adjacent_intervals (hs.intervalIntegrable _ 0.792) (hs.intervalIntegrable _ _),
            mid _ (by norm_num) le_rfl, intervalIntegral.integral_congr (a := 0.792) (g := fun _ => dSlope 0.792)]
          · simp; ring
          · intro t ht
            rw [Set.uIcc_of_le h3.le] at ht
            show dSlope (clamp t) = _
            congr 1
            show max _ (min _ _) = _
            rw [min_eq_right ht.1, max_eq_right (by norm_num)]
        rw [e]
        unfold dPoly dSlope
        rw [abs_le]
        norm_num at *
        constructor <;> linarith

/-- **C195**: `erbs` itself does jump: no continuous function comes within 1e-4 of its diffuse fraction. -/
theorem erbs_jumps : ¬ ∃ f : ℝ → ℝ, Continuous f ∧ ∀ k : ℝ, 0 ≤ k → k ≤ 1 → ∃ d : ℝ, erbsDf (fin k) = fin d ∧ |d - f k| ≤ 1e-4 := by
  rintro ⟨f, hf, h⟩
  have h0 : |0.9802 - f 0.22| ≤ 1e-4 := by
    obtain ⟨d, hd, hb⟩ := h 0.22 (by norm_num) (by norm_num)
    rw [erbsDf_real, if_neg (by norm_num), if_neg (by norm_num), fin_inj] at hd
    rw [← hd] at hb
    norm_num at *
    exact hb
  obtain ⟨δ, hδ, hc⟩ := Metric.continuous_iff.mp hf 0.22 2e-5 (by norm_num)
  let k : ℝ := 0.22 + min (δ / 2) 1e-4
  have hm : 0 < min (δ / 2) 1e-4 := lt_min (by positivity) (by norm_num)
  have hm' : min (δ / 2) 1e-4 ≤ 1e-4 := min_le_right _ _
  have h1 : |f k - f 0.22| < 2e-5 := by
    have := hc k (by rw [Real.dist_eq, show k - 0.22 = min (δ / 2) 1e-4 by simp only [k]; ring, abs_of_pos hm]
                     have := min_le_left (δ / 2) (1e-4 : ℝ); linarith)
    rwa [Real.dist_eq] at this
  have hk1 : (0.22 : ℝ) < k := by simp only [k]; linarith
  have hk2 : k ≤ 0.2201 := by
    simp only [k]
    have : (0.22 : ℝ) + 1e-4 = 0.2201 := by norm_num
    linarith
  obtain ⟨d, hd, hb⟩ := h k (by clear_value k; norm_num at hk1 hk2 ⊢; linarith) (by clear_value k; norm_num at hk1 hk2 ⊢; linarith)
  rw [erbsDf_real, if_neg (by clear_value k; norm_num at hk1 hk2 ⊢; linarith), if_pos hk1, fin_inj] at hd
  have he : ePoly k ≤ 0.97994 := by
    unfold ePoly
    clear_value k
    norm_num at hk1 hk2 ⊢
    have a1 : 0 ≤ k - 11/50 := by linarith
    have a2 : 0 ≤ 2201/10000 - k := by linarith
    have a3 := mul_nonneg a1 a2
    nlinarith [mul_nonneg a3 a1, mul_nonneg a3 a2, mul_nonneg a3 a3]
  rw [abs_le] at h0 hb
  rw [abs_lt] at h1
  clear_value k
  obtain ⟨a1, a2⟩ := h0; obtain ⟨b1, b2⟩ := hb; obtain ⟨c1, c2⟩ := h1
  norm_num at a1 a2 b1 b2 c1 c2 hd he
  linarith

/-! ### C196 -/

/-- The direct fraction times the clearness index, up to `ε`, does not fall. -/
private def Rising (df : ℝ → ℝ) (ε : ℝ) : Prop :=
  (∀ k, 0 ≤ k → k ≤ 1 → 0 ≤ df k ∧ df k ≤ 1) ∧ ∀ k k', 0 ≤ k → k ≤ k' → k' ≤ 1 → (1 - df k) * k ≤ (1 - df k') * k' + ε * k'

private theorem finish_value {g z mz d : ℝ} (kt : Fl) (hg : 0 ≤ g) (hz : z ≤ mz) (hc : 0 < cosDeg z) (hd : d ≤ 1) :
    (finishDf (fin g) (fin z) (fin mz) kt (fin d)).dni = fin ((1 - d) * g / cosDeg z) := by
  have e : (fin g - fin d * fin g) / Tools.cosd (fin z) = fin ((1 - d) * g / cosDeg z) := by
    rw [Tools.cosd_fin, fin_mul, fin_sub, fin_div hc.ne']
    congr 2
    ring
  have hn : ¬ (fin mz < fin z ∨ fin g < 0 ∨ (fin g - fin d * fin g) / Tools.cosd (fin z) < 0) := by
    rw [e, zero_eq, fin_lt, fin_lt, fin_lt, not_or, not_or]
    exact ⟨not_lt.mpr hz, not_lt.mpr hg, not_lt.mpr (div_nonneg (mul_nonneg (by linarith) hg) hc.le)⟩
  simp only [finishDf]
  rw [npwhere_neg hn, e]

private theorem dni_rises {df : ℝ → ℝ} {ε : ℝ} (hε : 0 ≤ ε) (h : Rising df ε) {g g' z e mc mz : ℝ} (h0 : 0 ≤ g) (hgg : g ≤ g') (he : 0 < e)
    (hmc : 0 < mc) (hz : z ≤ mz) (hc : 0 < cosDeg z) (f : Fl → Fl) (hf : ∀ k : ℝ, 0 ≤ k → k ≤ 1 → f (fin k) = fin (df k)) :
    ∃ n n' : ℝ, (finishDf (fin g) (fin z) (fin mz) (clearnessIndex (fin g) (fin z) (fin e) (fin mc) 1)
        (f (clearnessIndex (fin g) (fin z) (fin e) (fin mc) 1))).dni = fin n ∧
      (finishDf (fin g') (fin z) (fin mz) (clearnessIndex (fin g') (fin z) (fin e) (fin mc) 1)
        (f (clearnessIndex (fin g') (fin z) (fin e) (fin mc) 1))).dni = fin n' ∧ n ≤ n' + ε * g' / cosDeg z := by
  set D := e * max (cosDeg z) mc with hD
  have hDp : 0 < D := mul_pos he (hmc.trans_le (le_max_right _ _))
  have hk : ∀ x : ℝ, 0 ≤ x → clearnessIndex (fin x) (fin z) (fin e) (fin mc) 1 = fin (min (x / D) 1) := by
    intro x hx
    rw [one_eq, clearnessIndex_value x z e mc 1 he.ne' hmc, ← hD, max_eq_left (div_nonneg hx hDp.le)]
  have hr : ∀ x : ℝ, 0 ≤ x → 0 ≤ min (x / D) 1 ∧ min (x / D) 1 ≤ 1 := fun x hx => ⟨le_min (div_nonneg hx hDp.le) zero_le_one, min_le_right _ _⟩
  have h0' : 0 ≤ g' := h0.trans hgg
  obtain ⟨hl, hu⟩ := hr g h0
  obtain ⟨hl', hu'⟩ := hr g' h0'
  refine ⟨(1 - df (min (g / D) 1)) * g / cosDeg z, (1 - df (min (g' / D) 1)) * g' / cosDeg z, ?_, ?_, ?_⟩
  · rw [hk g h0, hf _ hl hu]; exact finish_value _ h0 hz hc (h.1 _ hl hu).2
  · rw [hk g' h0', hf _ hl' hu']; exact finish_value _ h0' hz hc (h.1 _ hl' hu').2
  · rw [← add_div]
    refine div_le_div_of_nonneg_right ?_ hc.le
    have hle : min (g / D) 1 ≤ min (g' / D) 1 := min_le_min_right _ (div_le_div_of_nonneg_right hgg hDp.le)
    have key := h.2 _ _ hl hle hu'
    by_cases c1 : g' ≤ D
    · have e1 : min (g / D) 1 = g / D := min_eq_left ((div_le_one hDp).mpr (hgg.trans c1))
      have e2 : min (g' / D) 1 = g' / D := min_eq_left ((div_le_one hDp).mpr c1)
      rw [e1, e2] at key ⊢
      have := mul_le_mul_of_nonneg_right key hDp.le
      have a1 : (1 - df (g / D)) * (g / D) * D = (1 - df (g / D)) * g := by field_simp
      have a2 : ((1 - df (g' / D)) * (g' / D) + ε * (g' / D)) * D = (1 - df (g' / D)) * g' + ε * g' := by field_simp
      rwa [a1, a2] at this
    · push Not at c1
      have e2 : min (g' / D) 1 = 1 := min_eq_right ((one_le_div hDp).mpr c1.le)
      have b1 := (h.1 1 zero_le_one le_rfl).2
      rw [e2] at key ⊢
      by_cases c2 : g ≤ D
      · have e1 : min (g / D) 1 = g / D := min_eq_left ((div_le_one hDp).mpr c2)
        rw [e1] at key ⊢
        have := mul_le_mul_of_nonneg_right key hDp.le
        have a1 : (1 - df (g / D)) * (g / D) * D = (1 - df (g / D)) * g := by field_simp
        rw [a1] at this
        nlinarith
      · push Not at c2
        have e1 : min (g / D) 1 = 1 := min_eq_right ((one_le_div hDp).mpr c2.le)
        rw [e1]
        have := mul_nonneg hε h0'
        nlinarith

private theorem mono_deriv {F F' : ℝ → ℝ} {l u : ℝ} (h : ∀ x, HasDerivAt F (F' x) x) (hp : ∀ x, l ≤ x → x ≤ u → 0 ≤ F' x) {x y : ℝ} (hx : l ≤ x)
    (hxy : x ≤ y) (hy : y ≤ u) : F x ≤ F y := by
  have : MonotoneOn F (Set.Icc l u) := by
    refine monotoneOn_of_deriv_nonneg (convex_Icc l u) (fun x _ => (h x).continuousAt.continuousWithinAt)
      (fun x _ => (h x).differentiableAt.differentiableWithinAt) ?_
    intro x hx
    rw [interior_Icc] at hx
    rw [(h x).deriv]
    exact hp x hx.1.le hx.2.le
  exact this ⟨hx, hxy.trans hy⟩ ⟨hx.trans hxy, hy⟩ hxy

private theorem ePiece {x y : ℝ} (hx : 0.22 ≤ x) (hxy : x ≤ y) (hy : y ≤ 0.8) : (1 - ePoly x) * x ≤ (1 - ePoly y) * y := by
  refine mono_deriv (F := fun k => (1 - ePoly k) * k)
    (F' := fun k => 1 - 0.9511 + 2 * 0.1604 * k - 3 * 4.388 * k ^ 2 + 4 * 16.638 * k ^ 3 - 5 * 12.336 * k ^ 4) ?_ (fun _ => eF_pos) hx hxy hy
  intro k
  have e : (fun k : ℝ => (1 - ePoly k) * k) = fun k => (1 - 0.9511) * k + 0.1604 * k ^ 2 - 4.388 * k ^ 3 + 16.638 * k ^ 4 - 12.336 * k ^ 5 := by
    funext k; unfold ePoly; ring
  rw [e]
  have d := (((((hasDerivAt_id k).const_mul (1 - 0.9511)).add ((hasDerivAt_pow 2 k).const_mul 0.1604)).sub ((hasDerivAt_pow 3 k).const_mul 4.388)).add
    ((hasDerivAt_pow 4 k).const_mul 16.638)).sub ((hasDerivAt_pow 5 k).const_mul 12.336)
  refine d.congr_deriv ?_
  norm_num
  ring

private theorem dPiece {x y : ℝ} (hx : 0.216 ≤ x) (hxy : x ≤ y) (hy : y ≤ 0.792) : (1 - dPoly x) * x ≤ (1 - dPoly y) * y := by
  refine mono_deriv (F := fun k => (1 - dPoly k) * k)
    (F' := fun k => 1 - 0.946296633571001 + 2 * 0.11390583806313881 * k - 3 * 4.246926715218317 * k ^ 2 + 4 * 16.470508424697307 * k ^ 3 -
      5 * 12.26911439571261 * k ^ 4) ?_ (fun _ => dF_pos) hx hxy hy
  intro k
  have e : (fun k : ℝ => (1 - dPoly k) * k) = fun k => (1 - 0.946296633571001) * k + 0.11390583806313881 * k ^ 2 - 4.246926715218317 * k ^ 3 +
      16.470508424697307 * k ^ 4 - 12.26911439571261 * k ^ 5 := by
    funext k; unfold dPoly; ring
  rw [e]
  have d := (((((hasDerivAt_id k).const_mul (1 - 0.946296633571001)).add ((hasDerivAt_pow 2 k).const_mul 0.11390583806313881)).sub
    ((hasDerivAt_pow 3 k).const_mul 4.246926715218317)).add ((hasDerivAt_pow 4 k).const_mul 16.470508424697307)).sub
    ((hasDerivAt_pow 5 k).const_mul 12.26911439571261)
  refine d.congr_deriv ?_
  norm_num
  ring

private theorem lin_le {x y : ℝ} (h0 : 0 ≤ x) (hxy : x ≤ y) (c : ℝ) (hc : 0 ≤ c) : (1 - (1 - c * x)) * x ≤ (1 - (1 - c * y)) * y := by
  have h1 : x * x ≤ y * y := mul_self_le_mul_self h0 hxy
  have := mul_le_mul_of_nonneg_left h1 hc
  linarith

private theorem erbs_rising : Rising (fun k => if 0.8 < k then 0.165 else if 0.22 < k then ePoly k else 1 - 0.09 * k) 0 := by
  constructor
  · intro k h0 h1
    obtain ⟨d, hd, h⟩ := erbsDf_range k h0 h1
    rw [erbsDf_real, fin_inj] at hd
    dsimp only
    rw [hd]; exact h
  intro k k' h0 hkk h1
  dsimp only
  rw [zero_mul, add_zero]
  -- the first piece ends below the second, the second below the third
  have j1 : ∀ x, 0 ≤ x → x ≤ 0.22 → (1 - (1 - 0.09 * x)) * x ≤ (1 - ePoly 0.22) * 0.22 := by
    intro x hx hx'
    refine (lin_le hx hx' 0.09 (by norm_num)).trans ?_
    unfold ePoly; norm_num
  have j2 : ∀ x, 0.8 < x → (1 - ePoly 0.8) * 0.8 ≤ (1 - 0.165) * x := by
    intro x hx
    have : (1 - ePoly 0.8) * 0.8 ≤ (1 - 0.165) * 0.8 := by unfold ePoly; norm_num
    refine this.trans ?_
    norm_num at *; linarith
  by_cases c1 : (0.8 : ℝ) < k
  · rw [if_pos c1, if_pos (c1.trans_le hkk)]
    norm_num at *; linarith
  rw [if_neg c1]
  push Not at c1
  by_cases c2 : (0.22 : ℝ) < k
  · rw [if_pos c2]
    by_cases c3 : (0.8 : ℝ) < k'
    · rw [if_pos c3]
      exact (ePiece c2.le c1 le_rfl).trans (j2 k' c3)
    · rw [if_neg c3, if_pos (c2.trans_le hkk)]
      exact ePiece c2.le hkk (not_lt.mp c3)
  rw [if_neg c2]
  push Not at c2
  by_cases c3 : (0.8 : ℝ) < k'
  · rw [if_pos c3]
    exact (j1 k h0 c2).trans ((ePiece le_rfl (by norm_num) le_rfl).trans (j2 k' c3))
  rw [if_neg c3]
  by_cases c4 : (0.22 : ℝ) < k'
  · rw [if_pos c4]
    exact (j1 k h0 c2).trans (ePiece le_rfl c4.le (not_lt.mp c3))
  · rw [if_neg c4]
    exact lin_le h0 hkk 0.09 (by norm_num)

private theorem driesse_rising : Rising (fun k => if 0.792 < k then 0.165 else if 0.216 < k then dPoly k else 1 - 0.09 * k) 1e-14 := by
  constructor
  · intro k h0 h1
    obtain ⟨d, hd, h⟩ := erbsDriesseDf_range k h0 h1
    rw [driesseDf_real, fin_inj] at hd
    dsimp only
    rw [hd]; exact h
  intro k k' h0 hkk h1
  dsimp only
  have hk' : 0 ≤ (1e-14 : ℝ) * k' := mul_nonneg (by norm_num) (h0.trans hkk)
  have j1 : ∀ x, 0 ≤ x → x ≤ 0.216 → (1 - (1 - 0.09 * x)) * x ≤ (1 - dPoly 0.216) * 0.216 + 1e-15 * 0.216 := by
    intro x hx hx'
    refine (lin_le hx hx' 0.09 (by norm_num)).trans ?_
    unfold dPoly; norm_num
  have j2 : ∀ x, 0.792 < x → (1 - dPoly 0.792) * 0.792 ≤ (1 - 0.165) * x + 7e-15 * x := by
    intro x hx
    have : (1 - dPoly 0.792) * 0.792 ≤ (1 - 0.165) * 0.792 + 7e-15 * 0.792 := by unfold dPoly; norm_num
    refine this.trans ?_
    norm_num at *; linarith
  by_cases c1 : (0.792 : ℝ) < k
  · rw [if_pos c1, if_pos (c1.trans_le hkk)]
    norm_num at *; linarith
  rw [if_neg c1]
  push Not at c1
  by_cases c2 : (0.216 : ℝ) < k
  · rw [if_pos c2]
    by_cases c3 : (0.792 : ℝ) < k'
    · rw [if_pos c3]
      have := (dPiece c2.le c1 le_rfl).trans (j2 k' c3)
      norm_num at *; linarith
    · rw [if_neg c3, if_pos (c2.trans_le hkk)]
      have := dPiece c2.le hkk (not_lt.mp c3)
      linarith
  rw [if_neg c2]
  push Not at c2
  have q1 := j1 k h0 c2
  by_cases c3 : (0.792 : ℝ) < k'
  · rw [if_pos c3]
    have q2 := dPiece (x := 0.216) (y := 0.792) le_rfl (by norm_num) le_rfl
    have q3 := j2 k' c3
    norm_num at *; linarith
  rw [if_neg c3]
  by_cases c4 : (0.216 : ℝ) < k'
  · rw [if_pos c4]
    have q2 := dPiece le_rfl c4.le (not_lt.mp c3)
    norm_num at *; linarith
  · rw [if_neg c4]
    have := lin_le h0 hkk 0.09 (by norm_num)
    linarith

section
variable {g g' z doy mc mz : ℝ} (h0 : 0 ≤ g) (hgg : g ≤ g') (hmc : 0 < mc) (hz : z ≤ mz) (hc : 0 < cosDeg z)
include h0 hgg hmc hz hc

private theorem extra_pos' (doy : ℝ) : ∃ e : ℝ, 0 < e ∧ extraSpencer (fin doy) 1366.1 = fin e := by
  obtain ⟨f, h, h1, h2⟩ := extraSpencer_fin doy 1366.1
  refine ⟨1366.1 * f, ?_, h⟩
  norm_num at *; linarith

/-- **C196**: with `erbs`, more global irradiance never means less direct irradiance (same sun, same day). -/
theorem erbs_rises : ∃ n n' : ℝ, (erbs (fin g) (fin z) (fin doy) (fin mc) (fin mz)).dni = fin n ∧
    (erbs (fin g') (fin z) (fin doy) (fin mc) (fin mz)).dni = fin n' ∧ n ≤ n' := by
  obtain ⟨e, he, hE⟩ := extra_pos' h0 hgg hmc hz hc doy
  obtain ⟨n, n', h1, h2, h3⟩ := dni_rises le_rfl erbs_rising h0 hgg he hmc hz hc erbsDf fun k _ _ => erbsDf_real k
  refine ⟨n, n', ?_, ?_, by simpa using h3⟩
  · simpa only [erbs, hE] using h1
  · simpa only [erbs, hE] using h2

/-- **C196**: with `boland` (and a positive steepness) likewise. -/
theorem boland_rises {a b : ℝ} (ha : 0 ≤ a) : ∃ n n' : ℝ, (boland (fin g) (fin z) (fin doy) (fin a) (fin b) (fin mc) (fin mz)).dni = fin n ∧
    (boland (fin g') (fin z) (fin doy) (fin a) (fin b) (fin mc) (fin mz)).dni = fin n' ∧ n ≤ n' := by
  obtain ⟨e, he, hE⟩ := extra_pos' h0 hgg hmc hz hc doy
  have hr : Rising (fun k => 1 / (1 + Real.exp (a * (k - b)))) 0 := by
    constructor
    · intro k _ _
      have := Real.exp_pos (a * (k - b))
      exact ⟨by positivity, (div_le_one (by positivity)).mpr (by linarith)⟩
    · intro k k' q0 q1 q2
      have p1 := Real.exp_pos (a * (k - b))
      have p2 : Real.exp (a * (k - b)) ≤ Real.exp (a * (k' - b)) := Real.exp_le_exp.mpr (mul_le_mul_of_nonneg_left (by linarith) ha)
      have p3 : 1 / (1 + Real.exp (a * (k' - b))) ≤ 1 / (1 + Real.exp (a * (k - b))) := one_div_le_one_div_of_le (by linarith) (by linarith)
      have p4 : 1 / (1 + Real.exp (a * (k - b))) ≤ 1 := (div_le_one (by positivity)).mpr (by linarith)
      have := mul_le_mul (show 1 - 1 / (1 + Real.exp (a * (k - b))) ≤ 1 - 1 / (1 + Real.exp (a * (k' - b))) by linarith) q1 q0 (by linarith)
      dsimp only
      linarith
  obtain ⟨n, n', h1, h2, h3⟩ := dni_rises le_rfl hr h0 hgg he hmc hz hc (fun kt => 1 / (1 + Fl.exp (fin a * (kt - fin b)))) fun k _ _ => by
    have : (1 : ℝ) + Real.exp (a * (k - b)) ≠ 0 := by positivity
    rw [fin_sub, fin_mul, exp_fin, one_eq, fin_add, fin_div this]
  refine ⟨n, n', ?_, ?_, by simpa using h3⟩
  · simpa only [boland, hE] using h1
  · simpa only [boland, hE] using h2

/-- **C196**: with `erbs_driesse` likewise, up to the rounding of its coefficients (1e-14 of the global irradiance on the beam). -/
theorem driesse_rises {e : ℝ} (he : 0 < e) : ∃ r r' : Decomp, erbsDriesse (fin g) (fin z) none (some (fin e)) (fin mc) (fin mz) = .ok r ∧
    erbsDriesse (fin g') (fin z) none (some (fin e)) (fin mc) (fin mz) = .ok r' ∧
    ∃ n n' : ℝ, r.dni = fin n ∧ r'.dni = fin n' ∧ n ≤ n' + 1e-14 * g' / cosDeg z := by
  refine ⟨_, _, rfl, rfl, ?_⟩
  obtain ⟨n, n', h1, h2, h3⟩ := dni_rises (by norm_num) driesse_rising h0 hgg he hmc hz hc erbsDriesseDf fun k _ _ => driesseDf_real k
  refine ⟨n, n', ?_, ?_, h3⟩
  · simpa only [erbsDriesseExtra, zero_eq, maximum_fin, max_eq_right h0] using h1
  · simpa only [erbsDriesseExtra, zero_eq, maximum_fin, max_eq_right (h0.trans hgg)] using h2
end

example := erbs_rises (g := 500) (g' := 501) (z := 60) (doy := 100) (mc := 0.065) (mz := 87) (by norm_num) (by norm_num) (by norm_num) (by norm_num)
  (by rw [show cosDeg 60 = 1 / 2 by simp only [cosDeg]; rw [show (60 : ℝ) * (Real.pi / 180) = Real.pi / 3 by ring]; exact Real.cos_pi_div_three]; norm_num)
example := boland_rises (g := 500) (g' := 501) (z := 0) (doy := 100) (mc := 0.065) (mz := 87) (a := 8.645) (b := 0.613) (by norm_num) (by norm_num)
  (by norm_num) (by norm_num) (by simp [cosDeg]) (by norm_num)
example := driesse_rises (g := 500) (g' := 501) (z := 0) (mc := 0.065) (mz := 87) (e := 1366) (by norm_num) (by norm_num)
  (by norm_num) (by norm_num) (by simp [cosDeg]) (by norm_num)

/-- **C196**: not so for `orgill_hollands`: its pieces do not meet at a clearness index of 0.35, and just there direct irradiance falls.
With the sun in the zenith and dni_extra 1000, 349.95 W/m2 global give more direct irradiance than 350 W/m2 do. -/
theorem orgill_falls (doy : Fl) : ∃ n n' : ℝ, (orgillHollands 349.95 0 doy (some 1000)).dni = fin n ∧
    (orgillHollands 350 0 doy (some 1000)).dni = fin n' ∧ n' + 0.02 < n := by
  have hc : cosDeg 0 = 1 := by simp [cosDeg]
  have hk : ∀ x : ℝ, 0 ≤ x → x ≤ 1000 → clearnessIndex (fin x) (fin 0) (fin 1000) (fin 0.065) 1 = fin (x / 1000) := by
    intro x h0 h1
    rw [one_eq, clearnessIndex_value x 0 1000 0.065 1 (by norm_num) (by norm_num), hc, max_eq_left (show (0.065 : ℝ) ≤ 1 by norm_num), mul_one,
      max_eq_left (by positivity), min_eq_left (by rw [div_le_one (by norm_num)]; exact h1)]
  refine ⟨(1 - (1 - 0.249 * 0.34995)) * 349.95, (1 - (1.557 - 1.84 * 0.35)) * 350, ?_, ?_, by norm_num⟩
  · simp only [orgillHollands, ofScientific_eq, zero_eq, ofNat_eq]
    rw [hk _ (by norm_num) (by norm_num), orgillDf_real, if_neg (by norm_num), if_neg (by norm_num), finish_value _ (by norm_num) (by norm_num)
      (by rw [hc]; norm_num) (by norm_num), hc]
    norm_num
  · simp only [orgillHollands, ofScientific_eq, zero_eq, ofNat_eq]
    rw [hk _ (by norm_num) (by norm_num), orgillDf_real, if_neg (by norm_num), if_pos (by norm_num), finish_value _ (by norm_num) (by norm_num)
      (by rw [hc]; norm_num) (by norm_num), hc]
    norm_num

end Pvlib.Props.ErbsShape
end
