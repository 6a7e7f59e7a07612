import Verif.Props.SingleDiodeCurve
import Mathlib.Analysis.SpecialFunctions.Log.Deriv
import Mathlib.Analysis.Complex.ExponentialBounds

/-! # Property C212: the bracket given to `chandrupatla`, and where it can go wrong -/

noncomputable section
open scoped Classical
open Real
namespace Pvlib.Props.SingleDiode
open Fl Pvlib.SingleDiode

variable {c : Cell}

private theorem startPoint_voc {p : Params} (hm : Matches p c) (h : Physical c) (hB : ¬ 0 < c.D → p.NsVbi = pinf)
    (hd : c.dom c.voc) : startPoint p = estimateVoc p.photocurrent p.saturation_current p.nNsVth := by
  rw [startPoint_fin hm h hB, estimateVoc_fin hm h]
  have : ¬ (0 < c.D ∧ c.B ≤ c.voc) := fun h' => absurd (hd h'.1) (not_lt.mpr h'.2)
  rw [Cell.searchEnd, if_neg this]

/-- **C212**: as long as `estimate_voc` is below the built-in voltage (always so without recombination),
`method='chandrupatla'` searches the very interval `method='brentq'` searches; with a bracketing root finder that keeps
its promise the current, the voltage and the maximum power point are found exactly where `brentq` finds them. -/
theorem chandrupatla_finds {p : Params} (hm : Matches p c) (h : Physical c) (hB : ¬ 0 < c.D → p.NsVbi = pinf)
    (hd : c.dom c.voc) (s : Solvers) (hs : Brackets s.chandrupatla) :
    (∀ v, 0 ≤ v → v ≤ c.voltage c.voc →
      ∃ i, bishop88IFromV s (fin v) p "chandrupatla" = .ok (fin i) ∧ c.Solves i v) ∧
    (∀ i, c.current c.voc ≤ i → i ≤ c.current 0 →
      ∃ v, bishop88VFromI s (fin i) p "chandrupatla" = .ok (fin v) ∧ c.Solves i v) ∧
    ∃ i v, bishop88Mpp s p "chandrupatla" = .ok ⟨fin i, fin v, fin (i * v)⟩ ∧ c.Solves i v ∧
      ∀ i' v', c.Solves i' v' → i' * v' ≤ i * v := by
  have hst := startPoint_voc hm h hB hd
  have hse : c.searchEnd = c.voc := by
    have : ¬ (0 < c.D ∧ c.B ≤ c.voc) := fun h' => absurd (hd h'.1) (not_lt.mpr h'.2)
    rw [Cell.searchEnd, if_neg this]
  have hl1 : pyLower "chandrupatla" = "chandrupatla" := by decide
  have hl2 : pyLower "brentq" = "brentq" := by decide
  have key : ∀ f f' x0, solveVd s "chandrupatla" f f' x0 p = solveVd ⟨s.chandrupatla, s.newton, s.chandrupatla⟩ "brentq" f f' x0 p := by
    intro f f' x0
    simp only [solveVd, hl1, hl2, if_true, hst]
    rw [if_neg (by decide), if_neg (by decide)]
  have e1 : ∀ v, bishop88IFromV s v p "chandrupatla" = bishop88IFromV ⟨s.chandrupatla, s.newton, s.chandrupatla⟩ v p "brentq" := by
    intro v; simp only [bishop88IFromV, key]
  have e2 : ∀ v, bishop88VFromI s v p "chandrupatla" = bishop88VFromI ⟨s.chandrupatla, s.newton, s.chandrupatla⟩ v p "brentq" := by
    intro v; simp only [bishop88VFromI, key]
  have e3 : bishop88Mpp s p "chandrupatla" = bishop88Mpp ⟨s.chandrupatla, s.newton, s.chandrupatla⟩ p "brentq" := by
    simp only [bishop88Mpp, key]
  refine ⟨fun v h0 h1 => ?_, fun i h0 h1 => ?_, ?_⟩
  · rw [e1]
    exact brentq_iFromV hm h hB _ hs v h0 (.inl (by rw [hse]; exact h1))
  · rw [e2]
    exact brentq_vFromI hm h hB _ hs i (.inl (by rw [hse]; exact h0)) h1
  · rw [e3]
    exact brentq_mpp hm h hB _ hs (.inl (by rw [hse]; exact (voc_bound h hd).2.1))

/-- The cell of the other theorems meets the hypotheses. -/
example (s : Solvers) (hs : Brackets s.chandrupatla) :=
  chandrupatla_finds demo_cell demo_physical (fun _ => rfl) (by unfold Cell.dom; norm_num) s hs

example : ∃ s : Solvers, Brackets s.chandrupatla :=
  ⟨⟨exists_brackets.choose, fun _ _ _ => .error .runtimeError, exists_brackets.choose⟩, exists_brackets.choose_spec⟩

/-! ### The bracket that contains the pole -/

/-- A module with recombination whose `estimate_voc` (56.6 V) exceeds the built-in voltage (54 V). -/
def filmCell : Cell := ⟨6, 6 / (2 ^ 34 - 1), 0.5, 0, 2.4, 1.31, 54, 0, -5.5, 3.28⟩
/-- The same, as arguments of pvlib's functions. -/
def filmParams : Params :=
  ⟨fin 6, fin (6 / (2 ^ 34 - 1)), fin 0.5, pinf, fin 2.4, fin 1.31, fin 54, fin 0, fin (-5.5), fin 3.28⟩

theorem film_matches : Matches filmParams filmCell :=
  ⟨rfl, rfl, rfl, Or.inr ⟨rfl, rfl⟩, rfl, by norm_num [filmCell], rfl, fun _ => rfl, rfl, rfl, by norm_num [filmCell], rfl⟩

theorem film_physical : Physical filmCell := by
  constructor <;> norm_num [filmCell]

theorem film_voc : 56 < filmCell.voc ∧ filmCell.voc < 57 := by
  have h : filmCell.voc = 2.4 * (34 * Real.log 2) := by
    have h2 : (6 : ℝ) / (6 / (2 ^ 34 - 1)) + 1 = 2 ^ 34 := by norm_num
    show (2.4 : ℝ) * Real.log (6 / (6 / (2 ^ 34 - 1)) + 1) = _
    rw [h2, Real.log_pow]
    norm_num
  have h1 := Real.log_two_gt_d9
  have h2 := Real.log_two_lt_d9
  rw [h]
  constructor <;> norm_num at * <;> linarith

private theorem film_diode {x : ℝ} (hx : x ≤ filmCell.voc) : filmCell.I0 * (Real.exp (x / filmCell.a) - 1) ≤ 6 := by
  have h1 : Real.exp (x / filmCell.a) ≤ Real.exp (filmCell.voc / filmCell.a) :=
    Real.exp_le_exp.mpr (div_le_div_of_nonneg_right hx film_physical.a.le)
  have h2 : filmCell.voc / filmCell.a = Real.log (2 ^ 34) := by
    have h2 : (6 : ℝ) / (6 / (2 ^ 34 - 1)) + 1 = 2 ^ 34 := by norm_num
    show (2.4 : ℝ) * Real.log (6 / (6 / (2 ^ 34 - 1)) + 1) / 2.4 = _
    rw [h2]
    ring
  rw [h2, Real.exp_log (by norm_num)] at h1
  have h3 := mul_le_mul_of_nonneg_left (sub_le_sub_right h1 1) film_physical.I0.le
  have h4 : filmCell.I0 * (2 ^ 34 - 1) = 6 := by norm_num [filmCell]
  linarith

/-- **C212** (a limit of the code, kept visible): when `estimate_voc` exceeds the built-in voltage, the bracket given to
`chandrupatla` is not cut off below the built-in voltage, as it is for `brentq` and `newton`, but contains the pole of
the recombination current and, beyond it, a second root of the residual.  A root finder that keeps its promise on
brackets of continuous functions, and only ever returns roots inside the bracket, may return that root: a current
that does not solve the single diode equation, where `brentq` finds the one that does. -/
theorem chandrupatla_wrong_root : ∃ s : Solvers, Brackets s.brentq ∧ Brackets s.chandrupatla ∧
    (∀ f lo hi y, s.chandrupatla f lo hi = .ok y → f y = fin 0) ∧
    (∃ i, bishop88IFromV s (fin 20) filmParams "brentq" = .ok (fin i) ∧ filmCell.Solves i 20) ∧
    (∃ j, bishop88IFromV s (fin 20) filmParams "chandrupatla" = .ok (fin j) ∧ ¬ filmCell.Solves j 20 ∧ 60 < j) := by
  obtain ⟨hv1, hv2⟩ := film_voc
  have hcur : ∀ x, filmCell.current x = 6 - filmCell.I0 * (Real.exp (x / filmCell.a) - 1) - 6 * 1.31 / (54 - x) := by
    intro x
    have hr : filmCell.recomb x = 6 * 1.31 / (54 - x) := by
      show (if (0 : ℝ) < 1.31 then (6 : ℝ) * 1.31 / (54 - x) else 0) = _
      rw [if_pos (by norm_num)]
    have ha : filmCell.avalanche x = 0 := by simp [Cell.avalanche, filmCell]
    have hg : x * filmCell.g = 0 := by simp [filmCell]
    simp only [Cell.current, hr, ha, hg]
    show 6 - _ - 0 - _ - 0 = _
    ring
  have hvolt : ∀ x, filmCell.voltage x = x - filmCell.current x * 0.5 := fun x => rfl
  -- the second root
  have hcont : ContinuousOn filmCell.voltage (Set.Icc 54.1 filmCell.voc) := by
    intro x hx
    have hx54 : x ≠ filmCell.B := by
      have : filmCell.B = 54 := rfl
      rw [this]
      have := hx.1
      intro e; rw [e] at this; norm_num at this
    have hb : filmCell.Vbr < x := by
      have : filmCell.Vbr = -5.5 := rfl
      rw [this]; have := hx.1; norm_num at *; linarith
    exact ((hasDerivAt_id x).sub ((hasDerivAt_current filmCell x (evaluable film_physical hb)
      (fun _ => hx54)).mul_const filmCell.Rs)).continuousAt.continuousWithinAt
  have hlo : filmCell.voltage 54.1 ≤ 20 := by
    have := film_diode (x := 54.1) (by norm_num at *; linarith)
    rw [hvolt, hcur]
    norm_num at *
    linarith
  have hhi : 20 ≤ filmCell.voltage filmCell.voc := by
    rw [hvolt, hcur]
    have h1 : (0 : ℝ) ≤ filmCell.I0 * (Real.exp (filmCell.voc / filmCell.a) - 1) := by
      refine mul_nonneg film_physical.I0.le ?_
      have := Real.add_one_le_exp (filmCell.voc / filmCell.a)
      have : 0 ≤ filmCell.voc / filmCell.a := div_nonneg (by linarith) film_physical.a.le
      linarith
    have h2 : -(6 * 1.31 / (54 - filmCell.voc)) ≤ 6 * 1.31 / 2 := by
      rw [← div_neg]
      exact div_le_div_of_nonneg_left (by norm_num) (by norm_num) (by linarith)
    norm_num at *
    linarith
  obtain ⟨r, hr, hrv⟩ := intermediate_value_Icc (by norm_num at *; linarith) hcont ⟨hlo, hhi⟩
  have hr1 : (54.1 : ℝ) ≤ r := hr.1
  have hpt : bishop88 (fin r) filmParams = _ := bishop88_point film_matches r
    (evaluable film_physical (by
      have : filmCell.Vbr = -5.5 := rfl
      rw [this]; norm_num at *; linarith))
    (fun _ => by
      have : filmCell.B = 54 := rfl
      rw [this]
      intro e; rw [e] at hr1; norm_num at hr1)
  have hj : filmCell.current r = (r - 20) / 0.5 := by
    rw [hvolt] at hrv; norm_num at *; linarith
  -- the root finder
  obtain ⟨b, hb, hb'⟩ := exists_brackets'
  let F : Fl → Fl := fun x => (bishop88 x filmParams).v - fin 20
  have hFr : F (fin r) = fin 0 := by
    show (bishop88 (fin r) filmParams).v - fin 20 = fin 0
    rw [hpt, hrv, fin_sub, sub_self]
  have hpole : ∀ y, F (fin 54) ≠ fin y := by
    intro y
    have h1 : iRecomb (fin 54) filmParams = pinf := by
      have e0 : vRecomb (fin 54) filmParams = fin 0 := by
        simp only [vRecomb, filmParams, zero_eq, fin_lt, fin_sub, sub_self]
        exact if_pos (by norm_num)
      have : (0 : Fl) < filmParams.d2mutau := by
        show (0 : Fl) < fin 1.31
        rw [zero_eq, fin_lt]; norm_num
      unfold iRecomb
      rw [show ∀ a b : Fl, npwhere (0 < filmParams.d2mutau) a b = a from fun a b => if_pos this, e0]
      show fin 6 * fin 1.31 / fin 0 = pinf
      rw [fin_mul, fin_div_zero, infSign_pos (by norm_num)]
    have h2 : iBreakdown (fin 54) filmParams = fin 0 := by
      have : (0 : ℝ) < 1 - 54 / -5.5 := by norm_num
      show fin 0 * fin 54 * gSh filmParams * Fl.rpow (1 - fin 54 / fin (-5.5)) (-fin 3.28) = fin 0
      rw [gSh_fin film_matches, fin_div (by norm_num), one_eq, fin_sub, neg_fin, rpow_fin_pos this]
      simp
    show (bishop88 (fin 54) filmParams).v - fin 20 ≠ fin y
    have h3 : (bishop88 (fin 54) filmParams).i = ninf := by
      show filmParams.photocurrent - filmParams.saturation_current * expm1 (fin 54 / filmParams.nNsVth) - fin 54 * gSh filmParams
        - iRecomb (fin 54) filmParams - iBreakdown (fin 54) filmParams = ninf
      rw [h1, h2, gSh_fin film_matches]
      show fin 6 - fin (6 / (2 ^ 34 - 1)) * expm1 (fin 54 / fin 2.4) - _ - _ - _ = ninf
      rw [fin_div (by norm_num)]
      simp [expm1]
    show fin 54 - (bishop88 (fin 54) filmParams).i * fin 0.5 - fin 20 ≠ fin y
    rw [h3]
    have : ninf * fin 0.5 = ninf := by rw [ninf_mul_fin, infSign_neg (by norm_num)]
    rw [this]
    simp
  let b2 : Bracket := fun f lo hi => if f = F ∧ lo = fin 0 ∧ hi = fin filmCell.voc then .ok (fin r) else b f lo hi
  have hb2 : Brackets b2 := by
    intro f h lo hi h0 hle hc hf hsg
    have : ¬ (f = F ∧ fin lo = fin 0 ∧ fin hi = fin filmCell.voc) := by
      rintro ⟨rfl, e1, e2⟩
      rw [fin_inj] at e1 e2
      exact hpole _ (hf 54 ⟨by linarith, by linarith⟩)
    obtain ⟨x, hx, e, hz⟩ := hb f h lo hi h0 hle hc hf hsg
    exact ⟨x, hx, by show (if _ then _ else _) = _; rw [if_neg this, e], hz⟩
  refine ⟨⟨b, fun _ _ _ => .error .runtimeError, b2⟩, hb, hb2, ?_, ?_, ?_⟩
  · intro f lo hi y hy
    by_cases hc : f = F ∧ lo = fin 0 ∧ hi = fin filmCell.voc
    · have : b2 f lo hi = .ok (fin r) := if_pos hc
      have hy' : b2 f lo hi = .ok y := hy
      rw [this] at hy'
      rw [← Except.ok.inj hy', hc.1]
      exact hFr
    · have : b2 f lo hi = b f lo hi := if_neg hc
      have hy' : b2 f lo hi = .ok y := hy
      rw [this] at hy'
      obtain ⟨x, rfl, h1, _⟩ := hb' f lo hi y hy'
      exact h1
  · refine brentq_iFromV film_matches film_physical (fun h => absurd (show (0 : ℝ) < filmCell.D by norm_num [filmCell]) h) _ hb 20 (by norm_num)
      (.inl ?_)
    have hse : filmCell.searchEnd = 0.9999 * 54 := by
      have hB : filmCell.B = 54 := rfl
      rw [Cell.searchEnd, if_pos ⟨by norm_num [filmCell], by rw [hB]; linarith⟩, hB]
    rw [hse, hvolt, hcur]
    have h1 : (0 : ℝ) ≤ filmCell.I0 * (Real.exp (0.9999 * 54 / filmCell.a) - 1) := by
      refine mul_nonneg film_physical.I0.le ?_
      have := Real.add_one_le_exp (0.9999 * 54 / filmCell.a)
      have : 0 ≤ 0.9999 * 54 / filmCell.a := div_nonneg (by norm_num) film_physical.a.le
      linarith
    norm_num at *
    linarith
  · refine ⟨filmCell.current r, ?_, ?_, ?_⟩
    · have hl : pyLower "chandrupatla" = "chandrupatla" := by decide
      unfold bishop88IFromV solveVd
      simp only [hl]
      rw [if_neg (by decide), if_neg (by decide), if_pos trivial, estimateVoc_fin film_matches film_physical]
      have : b2 (fun x => (bishop88 x filmParams).v - fin 20) 0 (fin filmCell.voc) = .ok (fin r) :=
        if_pos ⟨rfl, rfl, rfl⟩
      rw [this]
      dsimp only
      rw [hpt]
    · intro hs
      have h1 := hs.1 (by norm_num [filmCell])
      have h2 : filmCell.B = 54 := rfl
      have h3 : filmCell.Rs = 0.5 := rfl
      rw [hj, h2, h3] at h1
      norm_num at *
      linarith
    · rw [hj]
      norm_num at *
      linarith

end Pvlib.Props.SingleDiode
end
