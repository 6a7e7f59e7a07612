import Verif.Props.SingleDiode
import Mathlib.Analysis.Calculus.Deriv.MeanValue
import Mathlib.Topology.Order.IntermediateValue

/-! # Properties C67, C68: solving the single diode equation, and the maximum power point -/

noncomputable section
open scoped Classical
open Real
namespace Pvlib.Props.SingleDiode
open Fl Pvlib.SingleDiode

/-- A physically sensible cell without breakdown current: positive saturation current and thermal voltage,
non-negative light current, resistances and recombination; the breakdown voltage is negative (as documented). -/
structure Physical (c : Cell) : Prop where
  IL : 0 ≤ c.IL
  I0 : 0 < c.I0
  Rs : 0 ≤ c.Rs
  g : 0 ≤ c.g
  a : 0 < c.a
  D : 0 ≤ c.D
  DB : 0 < c.D → c.D ≤ c.B
  F : c.F = 0
  Vbr : c.Vbr < 0

/-- A module of 60 cells without recombination. -/
theorem demo_physical : Physical ⟨6, 5e-10, 0.5, 1 / 300, 1.5, 0, 0, 0, -5.5, 3.28⟩ := by
  constructor <;> norm_num

/-- The diode voltages on the branch of the model that describes a cell: below the built-in voltage. -/
def Cell.dom (c : Cell) (vd : ℝ) : Prop := 0 < c.D → vd < c.B

variable {c : Cell}

private theorem recomb_mono (h : Physical c) {x y : ℝ} (hxy : x ≤ y) (hy : c.dom y) : c.recomb x ≤ c.recomb y := by
  unfold Cell.recomb
  by_cases hD : 0 < c.D
  · simp only [hD, if_true]
    have h1 : 0 < c.B - y := by linarith [hy hD]
    have h2 : 0 ≤ c.IL * c.D := mul_nonneg h.IL h.D
    exact div_le_div_of_nonneg_left h2 h1 (by linarith)
  · simp [hD]

private theorem recomb_nonneg (h : Physical c) {x : ℝ} (hx : c.dom x) : 0 ≤ c.recomb x := by
  unfold Cell.recomb
  by_cases hD : 0 < c.D
  · simp only [hD, if_true]
    have h1 : 0 < c.B - x := by linarith [hx hD]
    exact div_nonneg (mul_nonneg h.IL h.D) h1.le
  · simp [hD]

private theorem avalanche_zero (h : Physical c) (x : ℝ) : c.avalanche x = 0 := by simp [Cell.avalanche, h.F]

/-- **C67**: the current falls strictly as the diode voltage rises. -/
theorem current_strictAnti (h : Physical c) {x y : ℝ} (hxy : x < y) (hy : c.dom y) : c.current y < c.current x := by
  have h1 := recomb_mono h hxy.le hy
  have h2 : Real.exp (x / c.a) < Real.exp (y / c.a) := Real.exp_lt_exp.mpr (div_lt_div_of_pos_right hxy h.a)
  have h3 := mul_le_mul_of_nonneg_right hxy.le h.g
  have h4 := mul_lt_mul_of_pos_left h2 h.I0
  simp only [Cell.current, avalanche_zero h]
  linarith

example := current_strictAnti demo_physical (x := 10) (y := 20) (by norm_num) (by unfold Cell.dom; norm_num)

/-- **C67**: the terminal voltage rises strictly with the diode voltage. -/
theorem voltage_strictMono (h : Physical c) {x y : ℝ} (hxy : x < y) (hy : c.dom y) : c.voltage x < c.voltage y := by
  have h1 := current_strictAnti h hxy hy
  have h2 := mul_le_mul_of_nonneg_right h1.le h.Rs
  simp only [Cell.voltage]
  linarith

example := voltage_strictMono demo_physical (x := 10) (y := 20) (by norm_num) (by unfold Cell.dom; norm_num)

theorem dom_of_le {x y : ℝ} (hxy : x ≤ y) (hy : c.dom y) : c.dom x := fun hD => lt_of_le_of_lt hxy (hy hD)

/-- **C67**: the single diode equation has at most one current for a voltage and at most one voltage for a current,
and along its solutions the current falls strictly as the voltage rises. -/
theorem solution_unique (h : Physical c) {i v i' v' : ℝ} (hs : c.Solves i v) (hs' : c.Solves i' v') :
    (v = v' → i = i') ∧ (i = i' → v = v') ∧ (v < v' ↔ i' < i) := by
  obtain ⟨x, hx, rfl, rfl⟩ := (solves_iff c i v).mp hs
  obtain ⟨y, hy, rfl, rfl⟩ := (solves_iff c i' v').mp hs'
  rcases lt_trichotomy x y with hxy | rfl | hxy
  · have h1 := current_strictAnti h hxy hy
    have h2 := voltage_strictMono h hxy hy
    exact ⟨fun e => absurd e h2.ne, fun e => absurd e h1.ne', by simp [h1, h2]⟩
  · simp
  · have h1 := current_strictAnti h hxy hx
    have h2 := voltage_strictMono h hxy hx
    exact ⟨fun e => absurd e h2.ne', fun e => absurd e h1.ne,
      ⟨fun e => absurd e (not_lt.mpr h2.le), fun e => absurd e (not_lt.mpr h1.le)⟩⟩

example := solution_unique demo_physical ((solves_iff _ _ _).mpr ⟨10, by norm_num, rfl, rfl⟩) ((solves_iff _ _ _).mpr ⟨20, by norm_num, rfl, rfl⟩)

/-- Open-circuit estimate in real numbers. -/
def Cell.voc (c : Cell) : ℝ := c.a * Real.log (c.IL / c.I0 + 1)

theorem estimateVoc_fin {p : Params} (hm : Matches p c) (h : Physical c) :
    estimateVoc p.photocurrent p.saturation_current p.nNsVth = fin c.voc := by
  have h1 : 0 < c.IL / c.I0 + 1 := by have := div_nonneg h.IL h.I0.le; linarith
  simp only [estimateVoc, hm.IL, hm.I0, hm.a, fin_div h.I0.ne', one_eq, fin_add, log_fin h1, fin_mul, Cell.voc]

/-- `estimate_voc` is non-negative. -/
theorem voc_nonneg (h : Physical c) : 0 ≤ c.voc := by
  have : 0 ≤ c.IL / c.I0 := div_nonneg h.IL h.I0.le
  exact mul_nonneg h.a.le (Real.log_nonneg (by linarith))

example := voc_nonneg demo_physical

/-- **C67**: `estimate_voc` bounds the open-circuit voltage from above: at that diode voltage the current is not
positive; it is exactly zero for a cell without shunt and recombination. -/
theorem voc_bound (h : Physical c) (hd : c.dom c.voc) :
    c.current c.voc = -(c.voc * c.g) - c.recomb c.voc ∧ c.current c.voc ≤ 0 ∧ c.voc ≤ c.voltage c.voc ∧
    ∀ v, c.Solves 0 v → v ≤ c.voc := by
  have h1 : 0 < c.IL / c.I0 + 1 := by have := div_nonneg h.IL h.I0.le; linarith
  have he : c.I0 * (Real.exp (c.voc / c.a) - 1) = c.IL := by
    have h2 : c.voc / c.a = Real.log (c.IL / c.I0 + 1) := by
      have := h.a.ne'
      simp only [Cell.voc]; field_simp
    rw [h2, Real.exp_log h1]
    have := h.I0.ne'
    field_simp; ring
  have e1 : c.current c.voc = -(c.voc * c.g) - c.recomb c.voc := by
    simp only [Cell.current, avalanche_zero h, he]; ring
  have e2 : c.current c.voc ≤ 0 := by
    have := recomb_nonneg h hd
    have := mul_nonneg (voc_nonneg h) h.g
    rw [e1]; linarith
  refine ⟨e1, e2, ?_, ?_⟩
  · have := mul_nonneg (neg_nonneg.mpr e2) h.Rs
    simp only [Cell.voltage]; linarith
  · intro v hv
    obtain ⟨x, hx, hi, rfl⟩ := (solves_iff c 0 v).mp hv
    have hxv : c.voltage x = x := by simp [Cell.voltage, ← hi]
    rw [hxv]
    by_contra hlt
    have := current_strictAnti h (not_le.mp hlt) hx
    linarith

example := voc_bound demo_physical (by unfold Cell.dom; norm_num)

/-- The current at diode voltage 0 (and below) is not negative. -/
theorem current_zero_nonneg (h : Physical c) : c.dom 0 ∧ 0 ≤ c.current 0 ∧ c.current 0 ≤ c.IL := by
  have hd : c.dom 0 := fun hD => lt_of_lt_of_le hD (h.DB hD)
  refine ⟨hd, ?_, ?_⟩
  · have : c.recomb 0 ≤ c.IL := by
      unfold Cell.recomb
      by_cases hD : 0 < c.D
      · simp only [hD, if_true, sub_zero]
        have hB := lt_of_lt_of_le hD (h.DB hD)
        rw [div_le_iff₀ hB]
        exact mul_le_mul_of_nonneg_left (h.DB hD) h.IL
      · simpa [hD] using h.IL
    simp [Cell.current, avalanche_zero h]
    exact this
  · have := recomb_nonneg h hd
    simp [Cell.current, avalanche_zero h]
    exact this

example := current_zero_nonneg demo_physical

/-! ### Solvers -/

/-- A solver that, when it returns, has found a root at a diode voltage on the branch of the model (and not beyond the
breakdown voltage, where the residual is NaN). -/
def Roots (c : Cell) (s : Solvers) : Prop :=
  (∀ f lo hi y, s.brentq f lo hi = .ok y → ∃ x, y = fin x ∧ f (fin x) = fin 0 ∧ c.dom x ∧ c.Vbr < x) ∧
  (∀ f f' x0 y, s.newton f f' x0 = .ok y → ∃ x, y = fin x ∧ f (fin x) = fin 0 ∧ c.dom x ∧ c.Vbr < x) ∧
  (∀ f lo hi y, s.chandrupatla f lo hi = .ok y → ∃ x, y = fin x ∧ f (fin x) = fin 0 ∧ c.dom x ∧ c.Vbr < x)

private theorem solveVd_root {s : Solvers} (hs : Roots c s) {method : String} {f f' : Fl → Fl} {x0 y : Fl} {p : Params}
    (h : solveVd s method f f' x0 p = .ok y) : ∃ x, y = fin x ∧ f (fin x) = fin 0 ∧ c.dom x ∧ c.Vbr < x := by
  unfold solveVd at h
  simp only at h
  split_ifs at h
  · exact hs.1 _ _ _ _ h
  · exact hs.2.1 _ _ _ _ h
  · exact hs.2.2 _ _ _ _ h

theorem evaluable (h : Physical c) {x : ℝ} (hx : c.Vbr < x) : 0 < 1 - x / c.Vbr := by
  rw [sub_pos, div_lt_one_of_neg h.Vbr]
  exact hx

private theorem sub_zero' {x : Fl} {a v : ℝ} (hx : x = fin a) (h : x - fin v = fin 0) : a = v := by
  rw [hx, fin_sub, fin_inj] at h
  linarith

/-- **C67**: whatever the method and the root finder, a current returned by `bishop88_i_from_v` is *the* current of
the single diode equation at that voltage. -/
theorem iFromV_unique {p : Params} (hm : Matches p c) (h : Physical c) (s : Solvers) (hs : Roots c s) (v : ℝ)
    (method : String) (r : Fl) (hr : bishop88IFromV s (fin v) p method = .ok r) :
    ∃ i, r = fin i ∧ c.Solves i v ∧ ∀ i', c.Solves i' v → i' = i := by
  unfold bishop88IFromV at hr
  split at hr
  · exact absurd hr (by simp)
  · rename_i y hy
    obtain ⟨x, rfl, hx, hd, hb⟩ := solveVd_root hs hy
    have hpt := bishop88_point hm x (evaluable h hb) (fun hD => (hd hD).ne)
    rw [hpt] at hr hx
    have hv := sub_zero' rfl hx
    refine ⟨c.current x, (Except.ok.inj hr).symm, ?_⟩
    have hsol : c.Solves (c.current x) v := (solves_iff c _ _).mpr ⟨x, hd, rfl, hv.symm⟩
    exact ⟨hsol, fun i' hi' => (solution_unique h hi' hsol).1 rfl⟩

/-- **C67**: likewise for `bishop88_v_from_i`. -/
theorem vFromI_unique {p : Params} (hm : Matches p c) (h : Physical c) (s : Solvers) (hs : Roots c s) (i : ℝ)
    (method : String) (r : Fl) (hr : bishop88VFromI s (fin i) p method = .ok r) :
    ∃ v, r = fin v ∧ c.Solves i v ∧ ∀ v', c.Solves i v' → v' = v := by
  unfold bishop88VFromI at hr
  split at hr
  · exact absurd hr (by simp)
  · rename_i y hy
    obtain ⟨x, rfl, hx, hd, hb⟩ := solveVd_root hs hy
    have hpt := bishop88_point hm x (evaluable h hb) (fun hD => (hd hD).ne)
    rw [hpt] at hr hx
    have hv := sub_zero' rfl hx
    refine ⟨c.voltage x, (Except.ok.inj hr).symm, ?_⟩
    have hsol : c.Solves i (c.voltage x) := (solves_iff c _ _).mpr ⟨x, hd, hv.symm, rfl⟩
    exact ⟨hsol, fun i' hi' => (solution_unique h hi' hsol).2.1 rfl⟩

/-- **C67**: method names are case-insensitive, and any name other than the three is refused. -/
theorem method_names (s : Solvers) (v : Fl) (p : Params) (method : String) :
    (pyLower method ∉ ["brentq", "newton", "chandrupatla"] →
      bishop88IFromV s v p method = .error .notImplementedError ∧
      bishop88VFromI s v p method = .error .notImplementedError ∧
      bishop88Mpp s p method = .error .notImplementedError) ∧
    (∀ method', pyLower method = pyLower method' → bishop88IFromV s v p method = bishop88IFromV s v p method' ∧
      bishop88VFromI s v p method = bishop88VFromI s v p method' ∧ bishop88Mpp s p method = bishop88Mpp s p method') := by
  constructor
  · intro h
    simp only [List.mem_cons, List.not_mem_nil, or_false, not_or] at h
    simp [bishop88IFromV, bishop88VFromI, bishop88Mpp, solveVd, h.1, h.2.1, h.2.2]
  · intro m' h
    simp [bishop88IFromV, bishop88VFromI, bishop88Mpp, solveVd, h]

example (s : Solvers) (v : Fl) (p : Params) := (method_names s v p "bisect").1 (by decide +kernel)

/-! ### The brackets given to `brentq` and `find_root` -/

/-- A bracketing root finder that keeps its promise: given a function that is real and continuous on `[lo, hi]` with
opposite (or zero) signs at the ends, it returns a root in `[lo, hi]` (only asked for `0 ≤ lo`). -/
def Brackets (b : Bracket) : Prop :=
  ∀ (f : Fl → Fl) (h : ℝ → ℝ) (lo hi : ℝ), 0 ≤ lo → lo ≤ hi → ContinuousOn h (Set.Icc lo hi) →
    (∀ x ∈ Set.Icc lo hi, f (fin x) = fin (h x)) → (h lo ≤ 0 ∧ 0 ≤ h hi ∨ h hi ≤ 0 ∧ 0 ≤ h lo) →
    ∃ x ∈ Set.Icc lo hi, b f (fin lo) (fin hi) = .ok (fin x) ∧ h x = 0

/-- A bracketing root finder that keeps its promise exists (intermediate value theorem); what it returns are roots from 0 on. -/
theorem exists_brackets' : ∃ b : Bracket, Brackets b ∧
    ∀ f lo hi y, b f lo hi = .ok y → ∃ x, y = fin x ∧ f (fin x) = fin 0 ∧ 0 ≤ x := by
  classical
  have key : ∀ (f : Fl → Fl) (lo hi : ℝ), (∃ h : ℝ → ℝ, lo ≤ hi ∧ ContinuousOn h (Set.Icc lo hi) ∧
      (∀ x ∈ Set.Icc lo hi, f (fin x) = fin (h x)) ∧ (h lo ≤ 0 ∧ 0 ≤ h hi ∨ h hi ≤ 0 ∧ 0 ≤ h lo)) →
      ∃ x ∈ Set.Icc lo hi, f (fin x) = fin 0 := by
    rintro f lo hi ⟨h, hle, hc, hf, hsg⟩
    have : (0 : ℝ) ∈ h '' Set.Icc lo hi := by
      rcases hsg with hsg | hsg
      · exact intermediate_value_Icc hle hc hsg
      · exact intermediate_value_Icc' hle hc hsg
    obtain ⟨x, hx, h0⟩ := this
    exact ⟨x, hx, by rw [hf x hx, h0]⟩
  refine ⟨fun f lo hi => match lo, hi with
    | fin l, fin u => if h : 0 ≤ l ∧ ∃ x ∈ Set.Icc l u, f (fin x) = fin 0 then .ok (fin h.2.choose) else .error .valueError
    | _, _ => .error .valueError, ?_, ?_⟩
  · intro f h lo hi h0 hle hc hf hsg
    have hex := key f lo hi ⟨h, hle, hc, hf, hsg⟩
    refine ⟨hex.choose, hex.choose_spec.1, by simp only [h0, hex, and_self, dif_pos], ?_⟩
    have := hex.choose_spec.2
    rw [hf _ hex.choose_spec.1, fin_inj] at this
    exact this
  · intro f lo hi y h
    cases lo <;> cases hi <;> try (simp at h; done)
    rename_i l u
    simp only at h
    split_ifs at h with hx
    cases h
    exact ⟨_, rfl, hx.2.choose_spec.2, le_trans hx.1 hx.2.choose_spec.1.1⟩

theorem exists_brackets : ∃ b : Bracket, Brackets b := exists_brackets'.imp fun _ h => h.1

/-- The finder above is also good for `Roots`, for a cell without recombination. -/
theorem exists_roots : ∃ s : Solvers, Brackets s.brentq ∧ Roots ⟨6, 5e-10, 0.5, 1 / 300, 1.5, 0, 0, 0, -5.5, 3.28⟩ s := by
  obtain ⟨b, h1, h2⟩ := exists_brackets'
  have h3 : ∀ f lo hi y, b f lo hi = .ok y → ∃ x, y = fin x ∧ f (fin x) = fin 0 ∧
      Cell.dom ⟨6, 5e-10, 0.5, 1 / 300, 1.5, 0, 0, 0, -5.5, 3.28⟩ x ∧ (-5.5 : ℝ) < x := by
    intro f lo hi y h
    obtain ⟨x, hx, hf, h0⟩ := h2 f lo hi y h
    exact ⟨x, hx, hf, fun h => absurd h (lt_irrefl 0), by linarith⟩
  exact ⟨⟨b, fun _ _ _ => .error .runtimeError, b⟩, h1, h3, fun _ _ _ _ h => (by cases h), h3⟩

private theorem continuousOn_current (h : Physical c) {lo hi : ℝ} (hlo : c.Vbr < lo) (hhi : c.dom hi) :
    ContinuousOn c.current (Set.Icc lo hi) := by
  intro x hx
  exact (hasDerivAt_current c x (evaluable h (lt_of_lt_of_le hlo hx.1))
    (fun hD => (dom_of_le hx.2 hhi hD).ne)).continuousAt.continuousWithinAt

private theorem continuousOn_voltage (h : Physical c) {lo hi : ℝ} (hlo : c.Vbr < lo) (hhi : c.dom hi) :
    ContinuousOn c.voltage (Set.Icc lo hi) := by
  have := continuousOn_current h hlo hhi
  unfold Cell.voltage
  fun_prop

/-- The end of the search interval: `estimate_voc`, or just below the built-in voltage when that is smaller. -/
def Cell.searchEnd (c : Cell) : ℝ := if 0 < c.D ∧ c.B ≤ c.voc then 0.9999 * c.B else c.voc

theorem startPoint_fin {p : Params} (hm : Matches p c) (h : Physical c)
    (hB : ¬ 0 < c.D → p.NsVbi = pinf) : startPoint p = fin c.searchEnd := by
  have hv := estimateVoc_fin hm h
  unfold startPoint Cell.searchEnd
  simp only [hv]
  by_cases hD : 0 < c.D
  · rw [hm.B hD]
    by_cases hb : c.B ≤ c.voc
    · simp [npwhere, hD, hb, not_lt.mpr hb]
    · simp [npwhere, hD, hb, not_le.mp hb]
  · simp [hB hD, hD]

theorem searchEnd_facts (h : Physical c) : 0 ≤ c.searchEnd ∧ c.dom c.searchEnd ∧ c.searchEnd ≤ c.voc := by
  unfold Cell.searchEnd Cell.dom
  have h0 := voc_nonneg h
  by_cases hc : 0 < c.D ∧ c.B ≤ c.voc
  · have hB : 0 < c.B := lt_of_lt_of_le hc.1 (h.DB hc.1)
    simp only [hc, and_self, if_true]
    exact ⟨by positivity, fun _ => by linarith, by linarith⟩
  · simp only [hc, if_false]
    refine ⟨h0, fun hD => ?_, le_rfl⟩
    by_contra hlt
    exact hc ⟨hD, not_lt.mp hlt⟩

/-- **C67**: with `brentq`, `bishop88_i_from_v` finds the current for every voltage from zero up to the terminal
voltage at the end of the search interval; without recombination that covers every voltage from 0 to
`estimate_voc`. -/
theorem brentq_iFromV {p : Params} (hm : Matches p c) (h : Physical c) (hB : ¬ 0 < c.D → p.NsVbi = pinf) (s : Solvers)
    (hs : Brackets s.brentq) (v : ℝ) (hv0 : 0 ≤ v) (hv1 : v ≤ c.voltage c.searchEnd ∨ (¬ 0 < c.D ∧ v ≤ c.voc)) :
    ∃ i, bishop88IFromV s (fin v) p "brentq" = .ok (fin i) ∧ c.Solves i v := by
  obtain ⟨hd0, hc0, _⟩ := current_zero_nonneg h
  obtain ⟨he0, hed, _⟩ := searchEnd_facts h
  have hv1' : v ≤ c.voltage c.searchEnd := by
    rcases hv1 with hv | ⟨hD, hv⟩
    · exact hv
    · have : c.searchEnd = c.voc := by simp [Cell.searchEnd, hD]
      rw [this]
      exact hv.trans (voc_bound h (fun hD' => absurd hD' hD)).2.2.1
  have hlo : c.Vbr < (0 : ℝ) := h.Vbr
  obtain ⟨x, hx, hb, hx0⟩ := hs (fun x => (bishop88 x p).v - fin v) (fun x => c.voltage x - v) 0 c.searchEnd le_rfl he0
    ((continuousOn_voltage h hlo hed).sub continuousOn_const)
    (fun x hx => by
      rw [bishop88_point hm x (evaluable h (lt_of_lt_of_le hlo hx.1)) (fun hD => (dom_of_le hx.2 hed hD).ne)]
      simp)
    (Or.inl ⟨by
      have := mul_nonneg hc0 h.Rs
      simp only [Cell.voltage]; linarith, by linarith⟩)
  refine ⟨c.current x, ?_, (solves_iff c _ _).mpr ⟨x, dom_of_le hx.2 hed, rfl, by linarith⟩⟩
  have hlow : pyLower "brentq" = "brentq" := by decide
  simp only [bishop88IFromV, solveVd, hlow, if_true, startPoint_fin hm h hB, zero_eq, hb]
  rw [bishop88_point hm x (evaluable h (lt_of_lt_of_le hlo hx.1)) (fun hD => (dom_of_le hx.2 hed hD).ne)]

example := brentq_iFromV demo_cell demo_physical (fun _ => rfl) exists_roots.choose exists_roots.choose_spec.1 0 le_rfl
  (.inr ⟨by norm_num, voc_nonneg demo_physical⟩)

example := iFromV_unique demo_cell demo_physical exists_roots.choose exists_roots.choose_spec.2 0 "brentq" _
  (brentq_iFromV demo_cell demo_physical (fun _ => rfl) exists_roots.choose exists_roots.choose_spec.1 0 le_rfl
    (.inr ⟨by norm_num, voc_nonneg demo_physical⟩)).choose_spec.1

/-- **C67**: with `brentq`, `bishop88_v_from_i` finds the voltage for every current from zero (or from the current at
the end of the search interval, when that is negative) up to the current at diode voltage zero. -/
theorem brentq_vFromI {p : Params} (hm : Matches p c) (h : Physical c) (hB : ¬ 0 < c.D → p.NsVbi = pinf) (s : Solvers)
    (hs : Brackets s.brentq) (i : ℝ) (hi0 : c.current c.searchEnd ≤ i ∨ (¬ 0 < c.D ∧ 0 ≤ i)) (hi1 : i ≤ c.current 0) :
    ∃ v, bishop88VFromI s (fin i) p "brentq" = .ok (fin v) ∧ c.Solves i v := by
  obtain ⟨he0, hed, _⟩ := searchEnd_facts h
  have hi0' : c.current c.searchEnd ≤ i := by
    rcases hi0 with hv | ⟨hD, hv⟩
    · exact hv
    · have : c.searchEnd = c.voc := by simp [Cell.searchEnd, hD]
      rw [this]
      exact (voc_bound h (fun hD' => absurd hD' hD)).2.1.trans hv
  have hlo : c.Vbr < (0 : ℝ) := h.Vbr
  obtain ⟨x, hx, hb, hx0⟩ := hs (fun x => (bishop88 x p).i - fin i) (fun x => c.current x - i) 0 c.searchEnd le_rfl he0
    ((continuousOn_current h hlo hed).sub continuousOn_const)
    (fun x hx => by
      rw [bishop88_point hm x (evaluable h (lt_of_lt_of_le hlo hx.1)) (fun hD => (dom_of_le hx.2 hed hD).ne)]
      simp)
    (Or.inr ⟨by linarith, by linarith⟩)
  refine ⟨c.voltage x, ?_, (solves_iff c _ _).mpr ⟨x, dom_of_le hx.2 hed, by linarith, rfl⟩⟩
  have hlow : pyLower "brentq" = "brentq" := by decide
  simp only [bishop88VFromI, solveVd, hlow, if_true, startPoint_fin hm h hB, zero_eq, hb]
  rw [bishop88_point hm x (evaluable h (lt_of_lt_of_le hlo hx.1)) (fun hD => (dom_of_le hx.2 hed hD).ne)]

example := brentq_vFromI demo_cell demo_physical (fun _ => rfl) exists_roots.choose exists_roots.choose_spec.1 0
  (.inr ⟨by norm_num, le_rfl⟩) (current_zero_nonneg demo_physical).2.1

example := vFromI_unique demo_cell demo_physical exists_roots.choose exists_roots.choose_spec.2 0 "brentq" _
  (brentq_vFromI demo_cell demo_physical (fun _ => rfl) exists_roots.choose exists_roots.choose_spec.1 0
    (.inr ⟨by norm_num, le_rfl⟩) (current_zero_nonneg demo_physical).2.1).choose_spec.1

/-! ### C68: the maximum power point -/

theorem slope_facts (h : Physical c) {x : ℝ} (hx : c.dom x) : c.slope x < 0 ∧ 1 ≤ 1 - c.slope x * c.Rs := by
  have h1 : 0 < c.I0 * Real.exp (x / c.a) / c.a := div_pos (mul_pos h.I0 (Real.exp_pos _)) h.a
  have h2 : 0 ≤ (if 0 < c.D then c.IL * c.D / (c.B - x) ^ 2 else 0) := by
    split_ifs
    · exact div_nonneg (mul_nonneg h.IL h.D) (sq_nonneg _)
    · exact le_rfl
  have hs : c.slope x < 0 := by
    simp only [Cell.slope, h.F, zero_mul, sub_zero]
    have := h.g
    linarith
  exact ⟨hs, by nlinarith [h.Rs]⟩

theorem slope_anti (h : Physical c) {x y : ℝ} (hxy : x ≤ y) (hy : c.dom y) : c.slope y ≤ c.slope x := by
  have h1 : Real.exp (x / c.a) ≤ Real.exp (y / c.a) := Real.exp_le_exp.mpr (div_le_div_of_nonneg_right hxy h.a.le)
  have h2 : c.I0 * Real.exp (x / c.a) / c.a ≤ c.I0 * Real.exp (y / c.a) / c.a :=
    div_le_div_of_nonneg_right (mul_le_mul_of_nonneg_left h1 h.I0.le) h.a.le
  have h3 : (if 0 < c.D then c.IL * c.D / (c.B - x) ^ 2 else 0) ≤ (if 0 < c.D then c.IL * c.D / (c.B - y) ^ 2 else 0) := by
    by_cases hD : 0 < c.D
    · simp only [hD, if_true]
      have hp : 0 < c.B - y := by linarith [hy hD]
      exact div_le_div_of_nonneg_left (mul_nonneg h.IL h.D) (by positivity) (by nlinarith)
    · simp [hD]
  simp only [Cell.slope, h.F, zero_mul, sub_zero]
  linarith

/-- `di/dv` along the curve. -/
def Cell.didv (c : Cell) (x : ℝ) : ℝ := c.slope x / (1 - c.slope x * c.Rs)
/-- `dp/dv` along the curve. -/
def Cell.dpdv (c : Cell) (x : ℝ) : ℝ := c.voltage x * c.didv x + c.current x

private theorem didv_facts (h : Physical c) {x y : ℝ} (hxy : x ≤ y) (hy : c.dom y) :
    c.didv x < 0 ∧ c.didv y ≤ c.didv x := by
  have hx := slope_facts h (dom_of_le hxy hy)
  have hy' := slope_facts h hy
  refine ⟨div_neg_of_neg_of_pos hx.1 (by linarith [hx.2]), ?_⟩
  have hs := slope_anti h hxy hy
  unfold Cell.didv
  rw [div_le_div_iff₀ (by linarith [hy'.2]) (by linarith [hx.2])]
  nlinarith

/-- `dp/dv` falls strictly along the curve where the voltage is not negative. -/
private theorem dpdv_strictAnti (h : Physical c) {x y : ℝ} (hxy : x < y) (hy : c.dom y) (hv : 0 ≤ c.voltage x) :
    c.dpdv y < c.dpdv x := by
  obtain ⟨d1, d2⟩ := didv_facts h hxy.le hy
  have hv' := voltage_strictMono h hxy hy
  have hi := current_strictAnti h hxy hy
  have e1 : c.voltage y * c.didv y ≤ c.voltage y * c.didv x := mul_le_mul_of_nonneg_left d2 (by linarith)
  have e2 : c.voltage y * c.didv x ≤ c.voltage x * c.didv x := mul_le_mul_of_nonpos_right hv'.le d1.le
  unfold Cell.dpdv
  linarith

/-- Where the voltage is negative the current is not, and `dp/dv` is positive. -/
private theorem neg_voltage (h : Physical c) {x : ℝ} (hx : c.dom x) (hv : c.voltage x < 0) :
    0 ≤ c.current x ∧ 0 < c.dpdv x := by
  obtain ⟨hd0, hc0, _⟩ := current_zero_nonneg h
  have hi : 0 ≤ c.current x := by
    by_contra hneg
    rw [not_le] at hneg
    have hx0 : x < 0 := by
      have := mul_nonpos_of_nonpos_of_nonneg hneg.le h.Rs
      simp only [Cell.voltage] at hv
      linarith
    have := current_strictAnti h hx0 hd0
    linarith
  refine ⟨hi, ?_⟩
  have := mul_pos_of_neg_of_neg hv (didv_facts h le_rfl hx).1
  unfold Cell.dpdv
  linarith

private theorem hasDerivAt_power (h : Physical c) {x : ℝ} (hx : c.dom x) (hb : c.Vbr < x) :
    HasDerivAt (fun x => c.current x * c.voltage x) (c.dpdv x * (1 - c.slope x * c.Rs)) x := by
  have hi := hasDerivAt_current c x (evaluable h hb) (fun hD => (hx hD).ne)
  have hvd : HasDerivAt (fun x => c.voltage x) (1 - c.slope x * c.Rs) x := (hasDerivAt_id x).sub (hi.mul_const c.Rs)
  have hv : 1 - c.slope x * c.Rs ≠ 0 := by have := (slope_facts h hx).2; linarith
  refine (hi.mul hvd).congr_deriv ?_
  unfold Cell.dpdv Cell.didv
  field_simp

/-- The power is largest where `dp/dv` vanishes. -/
private theorem power_max (h : Physical c) {x0 : ℝ} (hd0 : c.dom x0) (hr : c.dpdv x0 = 0) {x : ℝ}
    (hx : c.dom x) : c.current x * c.voltage x ≤ c.current x0 * c.voltage x0 := by
  have hv0 : 0 ≤ c.voltage x0 := by
    by_contra hneg
    have := (neg_voltage h hd0 (not_le.mp hneg)).2
    linarith
  have hi0 : 0 ≤ c.current x0 := by
    have e : c.current x0 = -(c.voltage x0 * c.didv x0) := by unfold Cell.dpdv at hr; linarith
    have := mul_nonpos_of_nonneg_of_nonpos hv0 (didv_facts h le_rfl hd0).1.le
    linarith
  by_cases hv : c.voltage x < 0
  · have h1 := (neg_voltage h hx hv).1
    have h2 := mul_nonpos_of_nonneg_of_nonpos h1 hv.le
    have h3 := mul_nonneg hi0 hv0
    linarith
  · rw [not_lt] at hv
    have hbx : ∀ y, c.dom y → 0 ≤ c.voltage y → c.Vbr < y := by
      intro y hy hvy
      by_contra hle
      have hy0 : y < 0 := lt_of_le_of_lt (not_lt.mp hle) h.Vbr
      obtain ⟨hd0', hc0, _⟩ := current_zero_nonneg h
      have h1 := current_strictAnti h hy0 hd0'
      have h2 : 0 ≤ c.current y * c.Rs := mul_nonneg (by linarith) h.Rs
      simp only [Cell.voltage] at hvy
      linarith
    rcases le_total x x0 with hle | hle
    · have hmono : MonotoneOn (fun x => c.current x * c.voltage x) (Set.Icc x x0) := by
        have hvb := hbx x hx hv
        apply monotoneOn_of_deriv_nonneg (convex_Icc x x0)
        · intro y hy
          exact (hasDerivAt_power h (dom_of_le hy.2 hd0) (lt_of_lt_of_le hvb hy.1)).continuousAt.continuousWithinAt
        · intro y hy
          rw [interior_Icc] at hy
          exact (hasDerivAt_power h (dom_of_le hy.2.le hd0) (lt_trans hvb hy.1)).differentiableAt.differentiableWithinAt
        · intro y hy
          rw [interior_Icc] at hy
          rw [(hasDerivAt_power h (dom_of_le hy.2.le hd0) (lt_trans hvb hy.1)).deriv]
          have hvy : 0 ≤ c.voltage y := hv.trans (voltage_strictMono h hy.1 (dom_of_le hy.2.le hd0)).le
          have := dpdv_strictAnti h hy.2 hd0 hvy
          have := (slope_facts h (dom_of_le hy.2.le hd0)).2
          apply mul_nonneg <;> linarith
      exact hmono ⟨le_rfl, hle⟩ ⟨hle, le_rfl⟩ hle
    · have hanti : AntitoneOn (fun x => c.current x * c.voltage x) (Set.Icc x0 x) := by
        have hvb := hbx x0 hd0 hv0
        apply antitoneOn_of_deriv_nonpos (convex_Icc x0 x)
        · intro y hy
          exact (hasDerivAt_power h (dom_of_le hy.2 hx) (lt_of_lt_of_le hvb hy.1)).continuousAt.continuousWithinAt
        · intro y hy
          rw [interior_Icc] at hy
          exact (hasDerivAt_power h (dom_of_le hy.2.le hx) (lt_trans hvb hy.1)).differentiableAt.differentiableWithinAt
        · intro y hy
          rw [interior_Icc] at hy
          rw [(hasDerivAt_power h (dom_of_le hy.2.le hx) (lt_trans hvb hy.1)).deriv]
          have := dpdv_strictAnti h hy.1 (dom_of_le hy.2.le hx) hv0
          have := (slope_facts h (dom_of_le hy.2.le hx)).2
          apply mul_nonpos_of_nonpos_of_nonneg <;> linarith
      exact hanti ⟨le_rfl, hle⟩ ⟨hle, le_rfl⟩ hle

private theorem gradP_fin {p : Params} (hm : Matches p c) (h : Physical c) {x : ℝ} (hx : c.dom x) (hb : c.Vbr < x) :
    (bishop88Grads (fin x) p).grad_p = fin (c.dpdv x) := by
  have hv : 1 - c.slope x * c.Rs ≠ 0 := by have := (slope_facts h hx).2; linarith
  obtain ⟨gi, gv, gp, g2p, he, _, _, _, _, _, hgp⟩ :=
    gradients_correct hm (Or.inl h.F) x (evaluable h hb) (fun hD => (hx hD).ne) hv
  rw [he]
  simp only [fin_inj]
  exact hgp

/-- **C68**: whatever the method and the root finder, a point returned by `bishop88_mpp` lies on the curve of the
single diode equation, its power is current times voltage, current and voltage are not negative, and no point of the
whole curve (all four quadrants) has more power. -/
theorem mpp_is_max {p : Params} (hm : Matches p c) (h : Physical c) (s : Solvers) (hs : Roots c s) (method : String)
    (r : Point) (hr : bishop88Mpp s p method = .ok r) :
    ∃ i v, r = ⟨fin i, fin v, fin (i * v)⟩ ∧ c.Solves i v ∧ 0 ≤ i ∧ 0 ≤ v ∧
      ∀ i' v', c.Solves i' v' → i' * v' ≤ i * v := by
  unfold bishop88Mpp at hr
  split at hr
  · exact absurd hr (by simp)
  · rename_i y hy
    obtain ⟨x, rfl, hx, hd, hb⟩ := solveVd_root hs hy
    have hpt := bishop88_point hm x (evaluable h hb) (fun hD => (hd hD).ne)
    rw [gradP_fin hm h hd hb, fin_inj] at hx
    rw [hpt] at hr
    have hv0 : 0 ≤ c.voltage x := by
      by_contra hneg
      have := (neg_voltage h hd (not_le.mp hneg)).2
      linarith
    refine ⟨c.current x, c.voltage x, (Except.ok.inj hr).symm, (solves_iff c _ _).mpr ⟨x, hd, rfl, rfl⟩, ?_, hv0, ?_⟩
    · have e : c.current x = -(c.voltage x * c.didv x) := by unfold Cell.dpdv at hx; linarith
      have := mul_nonpos_of_nonneg_of_nonpos hv0 (didv_facts h le_rfl hd).1.le
      linarith
    · intro i' v' hs'
      obtain ⟨z, hz, rfl, rfl⟩ := (solves_iff c i' v').mp hs'
      exact power_max h hd hx hz

/-- **C68**: the search interval of `bishop88_mpp` brackets the maximum power point, so `brentq` finds it, whenever
the current at the end of the interval is not positive (always so without recombination). -/
theorem brentq_mpp {p : Params} (hm : Matches p c) (h : Physical c) (hB : ¬ 0 < c.D → p.NsVbi = pinf) (s : Solvers)
    (hs : Brackets s.brentq) (he : c.current c.searchEnd ≤ 0 ∨ ¬ 0 < c.D) :
    ∃ i v, bishop88Mpp s p "brentq" = .ok ⟨fin i, fin v, fin (i * v)⟩ ∧ c.Solves i v ∧
      ∀ i' v', c.Solves i' v' → i' * v' ≤ i * v := by
  obtain ⟨hd0, hc0, _⟩ := current_zero_nonneg h
  obtain ⟨he0, hed, _⟩ := searchEnd_facts h
  have he' : c.current c.searchEnd ≤ 0 := by
    rcases he with he | hD
    · exact he
    · have : c.searchEnd = c.voc := by simp [Cell.searchEnd, hD]
      rw [this]
      exact (voc_bound h (fun hD' => absurd hD' hD)).2.1
  have hlo : c.Vbr < (0 : ℝ) := h.Vbr
  have hcont : ContinuousOn c.dpdv (Set.Icc 0 c.searchEnd) := by
    intro x hx
    have hxd := dom_of_le hx.2 hed
    have hxb := lt_of_lt_of_le hlo hx.1
    have hv : 1 - c.slope x * c.Rs ≠ 0 := by have := (slope_facts h hxd).2; linarith
    obtain ⟨gi, gv, gp, g2p, _, _, _, _, _, hder, _⟩ :=
      gradients_correct hm (Or.inl h.F) x (evaluable h hxb) (fun hD => (hxd hD).ne) hv
    exact hder.continuousAt.continuousWithinAt
  have h0 : 0 ≤ c.dpdv 0 := by
    have hv : c.voltage 0 ≤ 0 := by
      have := mul_nonneg hc0 h.Rs
      simp only [Cell.voltage]; linarith
    have := mul_nonneg_of_nonpos_of_nonpos hv (didv_facts h le_rfl hd0).1.le
    unfold Cell.dpdv
    linarith
  have h1 : c.dpdv c.searchEnd ≤ 0 := by
    have hv : 0 ≤ c.voltage c.searchEnd := by
      have := mul_nonpos_of_nonpos_of_nonneg he' h.Rs
      simp only [Cell.voltage]; linarith
    have := mul_nonpos_of_nonneg_of_nonpos hv (didv_facts h le_rfl hed).1.le
    unfold Cell.dpdv
    linarith
  obtain ⟨x, hx, hb, hx0⟩ := hs (fun x => (bishop88Grads x p).grad_p) c.dpdv 0 c.searchEnd le_rfl he0 hcont
    (fun x hx => gradP_fin hm h (dom_of_le hx.2 hed) (lt_of_lt_of_le hlo hx.1)) (Or.inr ⟨h1, h0⟩)
  have hxd := dom_of_le hx.2 hed
  refine ⟨c.current x, c.voltage x, ?_, (solves_iff c _ _).mpr ⟨x, hxd, rfl, rfl⟩, ?_⟩
  · have hlow : pyLower "brentq" = "brentq" := by decide
    simp only [bishop88Mpp, solveVd, hlow, if_true, startPoint_fin hm h hB, zero_eq, hb]
    rw [bishop88_point hm x (evaluable h (lt_of_lt_of_le hlo hx.1)) (fun hD => (hxd hD).ne)]
  · intro i' v' hs'
    obtain ⟨z, hz, rfl, rfl⟩ := (solves_iff c i' v').mp hs'
    exact power_max h hxd hx0 hz

example := brentq_mpp demo_cell demo_physical (fun _ => rfl) exists_roots.choose exists_roots.choose_spec.1 (.inr (by norm_num))

example := mpp_is_max demo_cell demo_physical exists_roots.choose exists_roots.choose_spec.2 "brentq" _
  (brentq_mpp demo_cell demo_physical (fun _ => rfl) exists_roots.choose exists_roots.choose_spec.1
    (.inr (by norm_num))).choose_spec.choose_spec.1

/-! ### The hypotheses can be met -/

/-- A thin-film cell with recombination. -/
example : Physical ⟨6, 5e-10, 0.5, 1 / 300, 1.5, 1.31, 54, 0, -5.5, 3.28⟩ := by
  constructor <;> norm_num

end Pvlib.Props.SingleDiode
end
