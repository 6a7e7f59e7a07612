import Verif.Props.SingleDiodeCurve
import Mathlib.Topology.Algebra.Order.LiminfLimsup
import Mathlib.Topology.Order.MonotoneConvergence

/-! # Property C211: Newton's method converges to the solution of the single diode equation -/

noncomputable section
open scoped Classical
open Real
namespace Pvlib.Props.SingleDiode
open Fl Pvlib.SingleDiode

/-! ### The specification: Newton's method as `scipy.optimize.newton` runs it on scalars -/

/-- `scipy.optimize.newton` with a derivative: at most `maxiter` steps `p = p0 - f(p0)/f'(p0)`; stop when `f(p0) == 0`
or when `|p - p0| <= tol`; a zero derivative, or running out of steps, raises `RuntimeError`. -/
def newtonRun (tol : ℝ) (f f' : Fl → Fl) : ℕ → Fl → Except PyErr Fl
  | 0, _ => .error .runtimeError
  | n + 1, p0 =>
    if eqv (f p0) (fin 0) then .ok p0
    else if eqv (f' p0) (fin 0) then .error .runtimeError
    else if Fl.abs (p0 - f p0 / f' p0 - p0) ≤ fin tol then .ok (p0 - f p0 / f' p0)
    else newtonRun tol f f' n (p0 - f p0 / f' p0)

/-- The iterates themselves. -/
def newtonSeq (f f' : Fl → Fl) (x0 : Fl) : ℕ → Fl
  | 0 => x0
  | n + 1 => newtonSeq f f' x0 n - f (newtonSeq f f' x0 n) / f' (newtonSeq f f' x0 n)

/-! ### Newton's method for a convex increasing function -/

/-- A convex increasing function with root `r` on an interval `P`; `F`, `F'` are code for `σ·f` and `σ·f'`. -/
structure Convex' (P : ℝ → Prop) (f f' : ℝ → ℝ) (r σ : ℝ) (F F' : Fl → Fl) : Prop where
  conn : ∀ x y z, P x → P y → x ≤ z → z ≤ y → P z
  root : P r
  zero : f r = 0
  deriv : ∀ x, P x → HasDerivAt f (f' x) x
  pos : ∀ x, P x → 0 < f' x
  mono : ∀ x y, P x → P y → x ≤ y → f' x ≤ f' y
  sg : σ ≠ 0
  code : ∀ x, P x → F (fin x) = fin (σ * f x)
  code' : ∀ x, P x → F' (fin x) = fin (σ * f' x)

section
variable {P : ℝ → Prop} {f f' : ℝ → ℝ} {r σ : ℝ} {F F' : Fl → Fl}

private theorem chord (h : Convex' P f f' r σ F F') {x y : ℝ} (hx : P x) (hy : P y) (hxy : x ≤ y) :
    f' x * (y - x) ≤ f y - f x ∧ f y - f x ≤ f' y * (y - x) := by
  rcases hxy.eq_or_lt with rfl | hlt
  · simp
  · obtain ⟨z, hz, he⟩ := exists_hasDerivAt_eq_slope f f' hlt
      (fun t ht => (h.deriv t (h.conn x y t hx hy ht.1 ht.2)).continuousAt.continuousWithinAt)
      (fun t ht => h.deriv t (h.conn x y t hx hy ht.1.le ht.2.le))
    have hzP := h.conn x y z hx hy hz.1.le hz.2.le
    have h1 := h.mono x z hx hzP hz.1.le
    have h2 := h.mono z y hzP hy hz.2.le
    have hpos : 0 < y - x := sub_pos.mpr hlt
    have : f y - f x = f' z * (y - x) := by rw [he]; field_simp
    rw [this]
    exact ⟨mul_le_mul_of_nonneg_right h1 hpos.le, mul_le_mul_of_nonneg_right h2 hpos.le⟩

/-- From anywhere one step lands at or above the root; from above the root it does not overshoot, and the distance to
the root is bounded by the step. -/
private theorem step (h : Convex' P f f' r σ F F') {x : ℝ} (hx : P x) :
    r ≤ x - f x / f' x ∧ (r ≤ x → x - f x / f' x ≤ x ∧ 0 ≤ f x ∧ (x - r) * f' r ≤ f x) := by
  have hp := h.pos x hx
  have hr := h.pos r h.root
  have hz := h.zero
  rcases le_total r x with hle | hle
  · obtain ⟨h1, h2⟩ := chord h h.root hx hle
    rw [hz, sub_zero] at h1 h2
    have hf0 : 0 ≤ f x := le_trans (mul_nonneg hr.le (sub_nonneg.mpr hle)) h1
    refine ⟨?_, fun _ => ⟨?_, hf0, by linarith⟩⟩
    · have : f x / f' x ≤ x - r := by rw [div_le_iff₀ hp]; linarith
      linarith
    · have := div_nonneg hf0 hp.le
      linarith
  · obtain ⟨h1, h2⟩ := chord h hx h.root hle
    rw [hz, zero_sub] at h1
    have : f x / f' x ≤ x - r := by rw [div_le_iff₀ hp]; nlinarith
    refine ⟨by linarith, fun hle' => ?_⟩
    have : x = r := le_antisymm hle hle'
    subst this
    rw [hz]; simp

private theorem code_step (h : Convex' P f f' r σ F F') {x : ℝ} (hx : P x) :
    fin x - F (fin x) / F' (fin x) = fin (x - f x / f' x) := by
  have hp := (h.pos x hx).ne'
  rw [h.code x hx, h.code' x hx, fin_div (mul_ne_zero h.sg hp), fin_sub]
  congr 2
  have := h.sg
  field_simp

/-- Iterates in real numbers. -/
private def rseq (f f' : ℝ → ℝ) (x0 : ℝ) : ℕ → ℝ
  | 0 => x0
  | n + 1 => rseq f f' x0 n - f (rseq f f' x0 n) / f' (rseq f f' x0 n)

private theorem rseq_facts (h : Convex' P f f' r σ F F') {x0 : ℝ} (h0 : P x0) (hr0 : r ≤ x0) (n : ℕ) :
    r ≤ rseq f f' x0 n ∧ rseq f f' x0 n ≤ x0 ∧ P (rseq f f' x0 n) ∧ rseq f f' x0 (n + 1) ≤ rseq f f' x0 n := by
  induction n with
  | zero => exact ⟨hr0, le_rfl, h0, ((step h h0).2 hr0).1⟩
  | succ n ih =>
    obtain ⟨h1, h2, h3, h4⟩ := ih
    have e : r ≤ rseq f f' x0 (n + 1) := (step h h3).1
    have e3 : P (rseq f f' x0 (n + 1)) := h.conn r x0 _ h.root h0 e (h4.trans h2)
    exact ⟨e, h4.trans h2, e3, ((step h e3).2 e).1⟩

/-- Error bound by the step. -/
private theorem error_le (h : Convex' P f f' r σ F F') {x0 : ℝ} (h0 : P x0) (hr0 : r ≤ x0) (n : ℕ) :
    rseq f f' x0 n - r ≤ f' x0 / f' r * (rseq f f' x0 n - rseq f f' x0 (n + 1)) := by
  obtain ⟨h1, h2, h3, h4⟩ := rseq_facts h h0 hr0 n
  obtain ⟨_, hs⟩ := step h h3
  obtain ⟨_, hf0, hb⟩ := hs h1
  have hr := h.pos r h.root
  have hx := h.pos _ h3
  have hm := h.mono _ _ h3 h0 h2
  set x := rseq f f' x0 n with hxdef
  have e : x - rseq f f' x0 (n + 1) = f x / f' x := by
    show x - (x - f x / f' x) = _
    ring
  rw [e]
  have h5 : x - r ≤ f x / f' r := by rw [le_div_iff₀ hr]; exact hb
  have h6 : f' x0 / f' r * (f x / f' x) = f x / f' r * (f' x0 / f' x) := by ring
  rw [h6]
  have h7 : 1 ≤ f' x0 / f' x := by rw [le_div_iff₀ hx]; linarith
  calc x - r ≤ f x / f' r := h5
    _ = f x / f' r * 1 := by ring
    _ ≤ _ := mul_le_mul_of_nonneg_left h7 (div_nonneg hf0 hr.le)

private theorem rseq_tendsto (h : Convex' P f f' r σ F F') {x0 : ℝ} (h0 : P x0) (hr0 : r ≤ x0) :
    Filter.Tendsto (rseq f f' x0) Filter.atTop (nhds r) := by
  have hanti : Antitone (rseq f f' x0) := antitone_nat_of_succ_le fun n => (rseq_facts h h0 hr0 n).2.2.2
  have hbdd : BddBelow (Set.range (rseq f f' x0)) := ⟨r, by rintro _ ⟨n, rfl⟩; exact (rseq_facts h h0 hr0 n).1⟩
  have hlim := tendsto_atTop_ciInf hanti hbdd
  have hstep : Filter.Tendsto (fun n => f' x0 / f' r * (rseq f f' x0 n - rseq f f' x0 (n + 1))) Filter.atTop (nhds 0) := by
    have h1 := (hlim.sub (hlim.comp (Filter.tendsto_add_atTop_nat 1))).const_mul (f' x0 / f' r)
    simpa using h1
  have : Filter.Tendsto (fun n => rseq f f' x0 n - r) Filter.atTop (nhds 0) :=
    squeeze_zero (fun n => sub_nonneg.mpr (rseq_facts h h0 hr0 n).1) (error_le h h0 hr0) hstep
  have h2 := this.add_const r
  simpa using h2

private theorem seq_code (h : Convex' P f f' r σ F F') {x0 : ℝ} (h0 : P x0) (hr0 : r ≤ x0) (n : ℕ) :
    newtonSeq F F' (fin x0) n = fin (rseq f f' x0 n) := by
  induction n with
  | zero => rfl
  | succ n ih =>
    show newtonSeq F F' (fin x0) n - F _ / F' _ = _
    rw [ih, code_step h (rseq_facts h h0 hr0 n).2.2.1]
    rfl

private theorem seq_shift (F F' : Fl → Fl) (x0 : Fl) (n : ℕ) :
    newtonSeq F F' x0 (n + 1) = newtonSeq F F' (x0 - F x0 / F' x0) n := by
  induction n with
  | zero => rfl
  | succ n ih =>
    show newtonSeq F F' x0 (n + 1) - _ = _
    rw [ih]
    rfl

/-- The iterates from `x0` when `x0` itself may lie below the root but the first step stays in the interval. -/
private theorem seq_converges (h : Convex' P f f' r σ F F') {x0 : ℝ} (h0 : P x0) (h1 : P (x0 - f x0 / f' x0)) :
    ∃ x : ℕ → ℝ, (∀ n, newtonSeq F F' (fin x0) n = fin (x n)) ∧ (∀ n, P (x n)) ∧ (∀ n, r ≤ x (n + 1)) ∧
      (∀ n, x (n + 2) ≤ x (n + 1)) ∧ Filter.Tendsto x Filter.atTop (nhds r) := by
  have hr1 := (step h h0).1
  refine ⟨fun n => match n with | 0 => x0 | n + 1 => rseq f f' (x0 - f x0 / f' x0) n, ?_, ?_, ?_, ?_, ?_⟩
  · intro n
    cases n with
    | zero => rfl
    | succ n => rw [seq_shift, code_step h h0]; exact seq_code h h1 hr1 n
  · intro n
    cases n with
    | zero => exact h0
    | succ n => exact (rseq_facts h h1 hr1 n).2.2.1
  · exact fun n => (rseq_facts h h1 hr1 n).1
  · exact fun n => (rseq_facts h h1 hr1 n).2.2.2
  · rw [← Filter.tendsto_add_atTop_iff_nat 1]
    exact rseq_tendsto h h1 hr1

private theorem run_of_steps (h : Convex' P f f' r σ F F') (K tol : ℝ) (hK : 1 ≤ K) (htol : 0 < tol) (N : ℕ) :
    ∀ (x0 : ℝ), P x0 → r ≤ x0 → f' x0 / f' r ≤ K →
    |rseq f f' x0 (N + 1) - rseq f f' x0 N| ≤ tol → ∀ m, N < m →
    ∃ x, newtonRun tol F F' m (fin x0) = .ok (fin x) ∧ r ≤ x ∧ x ≤ x0 ∧ x - r ≤ K * tol := by
  induction N with
  | zero =>
    intro x0 h0 hr0 hKx hst m hm
    obtain ⟨m, rfl⟩ : ∃ k, m = k + 1 := ⟨m - 1, by omega⟩
    have hp := (h.pos x0 h0).ne'
    unfold newtonRun
    by_cases hz : f x0 = 0
    · rw [if_pos (by rw [h.code x0 h0, hz]; simp)]
      refine ⟨x0, rfl, hr0, le_rfl, ?_⟩
      have := ((step h h0).2 hr0).2.2
      have hr := h.pos r h.root
      have : x0 - r ≤ 0 := by rw [hz] at this; nlinarith
      have := mul_nonneg (by linarith : (0:ℝ) ≤ K) htol.le
      linarith
    · rw [if_neg (by rw [h.code x0 h0, eqv_fin]; exact mul_ne_zero h.sg hz),
        if_neg (by rw [h.code' x0 h0, eqv_fin]; exact mul_ne_zero h.sg hp), code_step h h0, fin_sub, abs_fin,
        if_pos (by rw [fin_le]; exact hst)]
      refine ⟨_, rfl, (step h h0).1, ((step h h0).2 hr0).1, ?_⟩
      have e := error_le h h0 hr0 0
      have hmono := ((step h h0).2 hr0).1
      have hd : rseq f f' x0 0 - rseq f f' x0 (0 + 1) ≤ tol := by
        have := neg_abs_le (rseq f f' x0 (0 + 1) - rseq f f' x0 0); linarith
      have hd0 : 0 ≤ rseq f f' x0 0 - rseq f f' x0 (0 + 1) := sub_nonneg.mpr hmono
      have e2 : f' x0 / f' r * (rseq f f' x0 0 - rseq f f' x0 (0 + 1)) ≤ K * tol :=
        mul_le_mul hKx hd hd0 (by linarith)
      have e3 : rseq f f' x0 0 = x0 := rfl
      rw [e3] at e
      rw [e3] at e2
      linarith
  | succ N ih =>
    intro x0 h0 hr0 hKx hst m hm
    obtain ⟨m, rfl⟩ : ∃ k, m = k + 1 := ⟨m - 1, by omega⟩
    have hp := (h.pos x0 h0).ne'
    obtain ⟨s1, s2⟩ := step h h0
    obtain ⟨s3, s4, s5⟩ := s2 hr0
    have hr := h.pos r h.root
    have hKt := mul_nonneg (by linarith : (0:ℝ) ≤ K) htol.le
    unfold newtonRun
    by_cases hz : f x0 = 0
    · rw [if_pos (by rw [h.code x0 h0, hz]; simp)]
      refine ⟨x0, rfl, hr0, le_rfl, ?_⟩
      have : x0 - r ≤ 0 := by rw [hz] at s5; nlinarith
      linarith
    · rw [if_neg (by rw [h.code x0 h0, eqv_fin]; exact mul_ne_zero h.sg hz),
        if_neg (by rw [h.code' x0 h0, eqv_fin]; exact mul_ne_zero h.sg hp), code_step h h0, fin_sub, abs_fin]
      by_cases hc : |x0 - f x0 / f' x0 - x0| ≤ tol
      · rw [if_pos (by rw [fin_le]; exact hc)]
        refine ⟨_, rfl, s1, s3, ?_⟩
        have e := error_le h h0 hr0 0
        have e3 : rseq f f' x0 0 = x0 := rfl
        have e4 : rseq f f' x0 (0 + 1) = x0 - f x0 / f' x0 := rfl
        rw [e3, e4] at e
        have hd : x0 - (x0 - f x0 / f' x0) ≤ tol := by
          have := neg_abs_le (x0 - f x0 / f' x0 - x0); linarith
        have e2 : f' x0 / f' r * (x0 - (x0 - f x0 / f' x0)) ≤ K * tol := mul_le_mul hKx hd (by linarith) (by linarith)
        linarith
      · rw [if_neg (by rw [fin_le]; exact hc)]
        have h1 : P (x0 - f x0 / f' x0) := h.conn r x0 _ h.root h0 s1 s3
        have hshift : ∀ k, rseq f f' x0 (k + 1) = rseq f f' (x0 - f x0 / f' x0) k := by
          intro k
          induction k with
          | zero => rfl
          | succ k ihk => show rseq f f' x0 (k + 1) - _ = _; rw [ihk]; rfl
        obtain ⟨x, hx1, hx2, hx3, hx4⟩ := ih (x0 - f x0 / f' x0) h1 s1
          (le_trans (div_le_div_of_nonneg_right (h.mono _ _ h1 h0 s3) hr.le) hKx)
          (by rw [← hshift, ← hshift]; exact hst) m (by omega)
        exact ⟨x, hx1, hx2, hx3.trans s3, hx4⟩

/-- The run of Newton's method returns a point within a fixed multiple of the tolerance of the root. -/
private theorem run_converges (h : Convex' P f f' r σ F F') {x0 : ℝ} (h0 : P x0) (h1 : P (x0 - f x0 / f' x0)) :
    ∃ K M : ℝ, 0 < K ∧ P M ∧ r ≤ M ∧ ∀ tol, 0 < tol → ∃ N, ∀ m, N ≤ m →
      ∃ x, newtonRun tol F F' m (fin x0) = .ok (fin x) ∧ r ≤ x ∧ x ≤ M ∧ x - r ≤ K * tol := by
  have hr := h.pos r h.root
  have main : ∀ y, P y → r ≤ y → ∀ tol, 0 < tol → ∃ N, ∀ m, N ≤ m → ∃ x, newtonRun tol F F' m (fin y) = .ok (fin x) ∧
      r ≤ x ∧ x ≤ y ∧ x - r ≤ (f' y / f' r) * tol := by
    intro y hy hry tol htol
    have ht := rseq_tendsto h hy hry
    have hd : Filter.Tendsto (fun n => rseq f f' y (n + 1) - rseq f f' y n) Filter.atTop (nhds 0) := by
      simpa using (ht.comp (Filter.tendsto_add_atTop_nat 1)).sub ht
    obtain ⟨N, hN⟩ := (Metric.tendsto_atTop.mp hd) tol htol
    have hNN := hN N le_rfl
    rw [Real.dist_eq, sub_zero] at hNN
    refine ⟨N + 1, fun m hm => ?_⟩
    exact run_of_steps h _ tol (by rw [le_div_iff₀ hr]; linarith [h.mono _ _ h.root hy hry]) htol N y hy hry le_rfl hNN.le
      m (by omega)
  by_cases hr0 : r ≤ x0
  · exact ⟨f' x0 / f' r, x0, div_pos (h.pos _ h0) hr, h0, hr0, main x0 h0 hr0⟩
  · rw [not_le] at hr0
    have hr1 := (step h h0).1
    set x1 := x0 - f x0 / f' x0 with hx1
    have hK1 : 1 ≤ f' x1 / f' r := by rw [le_div_iff₀ hr]; linarith [h.mono _ _ h.root h1 hr1]
    refine ⟨f' x1 / f' r, x1, div_pos (h.pos _ h1) hr, h1, hr1, fun tol htol => ?_⟩
    obtain ⟨N, hN⟩ := main x1 h1 hr1 tol htol
    refine ⟨N + 1, fun m hm => ?_⟩
    obtain ⟨m, rfl⟩ : ∃ k, m = k + 1 := ⟨m - 1, by omega⟩
    have hp := (h.pos x0 h0).ne'
    have hz : f x0 ≠ 0 := by
      intro hz
      rw [hx1, hz, zero_div, sub_zero] at hr1
      linarith
    unfold newtonRun
    rw [if_neg (by rw [h.code x0 h0, eqv_fin]; exact mul_ne_zero h.sg hz),
      if_neg (by rw [h.code' x0 h0, eqv_fin]; exact mul_ne_zero h.sg hp), code_step h h0, fin_sub, abs_fin, ← hx1]
    by_cases hc : |x1 - x0| ≤ tol
    · rw [if_pos (by rw [fin_le]; exact hc)]
      refine ⟨x1, rfl, hr1, le_rfl, ?_⟩
      have := le_abs_self (x1 - x0)
      have e : tol ≤ f' x1 / f' r * tol := le_mul_of_one_le_left htol.le hK1
      linarith
    · rw [if_neg (by rw [fin_le]; exact hc)]
      exact hN m (by omega)
end

/-! ### The single diode equation -/

variable {c : Cell}

private theorem convex_voltage {p : Params} (hm : Matches p c) (h : Physical c) {r v : ℝ} (hr : c.dom r) (hb : c.Vbr < r)
    (hv : c.voltage r = v) :
    Convex' (fun x => c.Vbr < x ∧ c.dom x) (fun x => c.voltage x - v) (fun x => 1 - c.slope x * c.Rs) r 1
      (fun x => (bishop88 x p).v - fin v) (fun x => (bishop88Grads x p).grad_v) where
  conn := fun x y z hx hy h1 h2 => ⟨lt_of_lt_of_le hx.1 h1, dom_of_le h2 hy.2⟩
  root := ⟨hb, hr⟩
  zero := by rw [hv, sub_self]
  deriv := fun x hx => by
    have hi := hasDerivAt_current c x (evaluable h hx.1) (fun hD => (hx.2 hD).ne)
    exact ((hasDerivAt_id x).sub (hi.mul_const c.Rs)).sub_const v
  pos := fun x hx => by linarith [(slope_facts h hx.2).2]
  mono := fun x y hx hy hxy => by
    have := mul_le_mul_of_nonneg_right (slope_anti h hxy hy.2) h.Rs
    linarith
  sg := one_ne_zero
  code := fun x hx => by
    rw [bishop88_point hm x (evaluable h hx.1) (fun hD => (hx.2 hD).ne), one_mul, fin_sub]
  code' := fun x hx => by
    have hne : 1 - c.slope x * c.Rs ≠ 0 := by have := (slope_facts h hx.2).2; linarith
    have hi := hasDerivAt_current c x (evaluable h hx.1) (fun hD => (hx.2 hD).ne)
    obtain ⟨gi, gv, gp, g2p, he, _, hgv, _⟩ :=
      gradients_correct hm (Or.inl h.F) x (evaluable h hx.1) (fun hD => (hx.2 hD).ne) hne
    rw [he, one_mul]
    have := hgv.unique ((hasDerivAt_id x).sub (hi.mul_const c.Rs))
    simp only [this]

private theorem convex_current {p : Params} (hm : Matches p c) (h : Physical c) {r i : ℝ} (hr : c.dom r) (hb : c.Vbr < r)
    (hi : c.current r = i) :
    Convex' (fun x => c.Vbr < x ∧ c.dom x) (fun x => i - c.current x) (fun x => -c.slope x) r (-1)
      (fun x => (bishop88 x p).i - fin i) (fun x => (bishop88Grads x p).grad_i) where
  conn := fun x y z hx hy h1 h2 => ⟨lt_of_lt_of_le hx.1 h1, dom_of_le h2 hy.2⟩
  root := ⟨hb, hr⟩
  zero := by rw [hi, sub_self]
  deriv := fun x hx => (hasDerivAt_current c x (evaluable h hx.1) (fun hD => (hx.2 hD).ne)).const_sub i
  pos := fun x hx => by linarith [(slope_facts h hx.2).1]
  mono := fun x y hx hy hxy => by linarith [slope_anti h hxy hy.2]
  sg := by norm_num
  code := fun x hx => by
    rw [bishop88_point hm x (evaluable h hx.1) (fun hD => (hx.2 hD).ne), fin_sub]
    congr 1; ring
  code' := fun x hx => by
    have hne : 1 - c.slope x * c.Rs ≠ 0 := by have := (slope_facts h hx.2).2; linarith
    have hi := hasDerivAt_current c x (evaluable h hx.1) (fun hD => (hx.2 hD).ne)
    obtain ⟨gi, gv, gp, g2p, he, hgi, _⟩ :=
      gradients_correct hm (Or.inl h.F) x (evaluable h hx.1) (fun hD => (hx.2 hD).ne) hne
    rw [he, hgi.unique hi]
    simp

/-- Currents of points above the root differ from the root's by a multiple of the distance. -/
private theorem current_close {p : Params} (hm : Matches p c) (h : Physical c) {r x M : ℝ} (hb : c.Vbr < r) (hM : c.dom M)
    (h1 : r ≤ x) (h2 : x ≤ M) : |c.current x - c.current r| ≤ -c.slope M * (x - r) := by
  have hv := convex_current hm h (dom_of_le (h1.trans h2) hM) hb rfl
  have hxP : c.Vbr < x ∧ c.dom x := ⟨lt_of_lt_of_le hb h1, dom_of_le h2 hM⟩
  obtain ⟨e1, e2⟩ := chord hv hv.root hxP h1
  have e3 := slope_anti h h2 hM
  have e4 : -c.slope x * (x - r) ≤ -c.slope M * (x - r) := mul_le_mul_of_nonneg_right (by linarith) (by linarith)
  have e5 : 0 ≤ -c.slope r * (x - r) :=
    mul_nonneg (by linarith [(slope_facts h (dom_of_le (h1.trans h2) hM)).1]) (by linarith)
  rw [abs_le]
  constructor <;> linarith

private theorem first_voltage {p : Params} (hm : Matches p c) (h : Physical c) {i v : ℝ} (hs : c.Solves i v)
    (hv : c.Vbr < v) (hd : c.Vbr < v + i * c.Rs) (hD : 0 < c.D → i ≤ 0 ∧ v < c.B) :
    c.dom (v + i * c.Rs) ∧ c.voltage (v + i * c.Rs) = v ∧ c.current (v + i * c.Rs) = i ∧ (c.Vbr < v ∧ c.dom v) ∧
    (c.Vbr < v - (c.voltage v - v) / (1 - c.slope v * c.Rs) ∧ c.dom (v - (c.voltage v - v) / (1 - c.slope v * c.Rs))) := by
  have hc : c.current (v + i * c.Rs) = i := hs.2.symm
  have hvv : c.voltage (v + i * c.Rs) = v := by simp only [Cell.voltage, hc]; ring
  have hP : c.Vbr < v ∧ c.dom v := ⟨hv, fun h' => (hD h').2⟩
  have hst := step (convex_voltage hm h hs.1 hd hvv) hP
  refine ⟨hs.1, hvv, hc, hP, lt_of_lt_of_le hd hst.1, fun h' => ?_⟩
  have hr : v + i * c.Rs ≤ v := by have := mul_nonpos_of_nonpos_of_nonneg (hD h').1 h.Rs; linarith
  exact lt_of_le_of_lt (hst.2 hr).1 (hD h').2

/-- **C211**: `bishop88_i_from_v` with `method='newton'` (the default).  If the single diode equation has a solution at
the voltage (between breakdown and, for a cell with recombination, at a current that is not positive), Newton's
iteration never divides by zero or leaves the real numbers; after the first step the iterates fall; the currents computed
from them converge to the solution, and for every tolerance, with enough steps allowed, `newton` returns, at an error
of at most a fixed multiple of the tolerance. -/
theorem newton_iFromV {p : Params} (hm : Matches p c) (h : Physical c) {i v : ℝ} (hs : c.Solves i v)
    (hv : c.Vbr < v) (hd : c.Vbr < v + i * c.Rs) (hD : 0 < c.D → i ≤ 0 ∧ v < c.B) :
    (∃ x y : ℕ → ℝ, (∀ n, newtonSeq (fun x => (bishop88 x p).v - fin v) (fun x => (bishop88Grads x p).grad_v) (fin v) n =
        fin (x n)) ∧ (∀ n, x (n + 2) ≤ x (n + 1)) ∧ (∀ n, (bishop88 (fin (x n)) p).i = fin (y n)) ∧
        Filter.Tendsto y Filter.atTop (nhds i)) ∧
    ∃ K, ∀ tol, 0 < tol → ∃ N, ∀ maxiter, N ≤ maxiter → ∀ s : Solvers,
      (s.newton = fun f f' x0 => newtonRun tol f f' maxiter x0) →
      ∃ i', bishop88IFromV s (fin v) p "newton" = .ok (fin i') ∧ |i' - i| ≤ K * tol := by
  obtain ⟨hr, hvv, hcc, hP, hP1⟩ := first_voltage hm h hs hv hd hD
  have hconv := convex_voltage hm h hr hd hvv
  constructor
  · obtain ⟨x, h1, h2, h3, h4, h5⟩ := seq_converges hconv hP hP1
    refine ⟨x, fun n => c.current (x n), h1, h4, fun n => ?_, ?_⟩
    · rw [bishop88_point hm (x n) (evaluable h (h2 n).1) (fun h' => ((h2 n).2 h').ne)]
    · have hcont := (hasDerivAt_current c _ (evaluable h hd) (fun h' => (hr h').ne)).continuousAt.tendsto
      rw [hcc] at hcont
      exact hcont.comp h5
  · obtain ⟨K, M, hK, hM, hrM, hrun⟩ := run_converges hconv hP hP1
    refine ⟨-c.slope M * K, fun tol htol => ?_⟩
    obtain ⟨N, hN⟩ := hrun tol htol
    refine ⟨N, fun m hmN s hsn => ?_⟩
    obtain ⟨x, hx1, hx2, hx3, hx4⟩ := hN m hmN
    have hxb := lt_of_lt_of_le hd hx2
    refine ⟨c.current x, ?_, ?_⟩
    · have hl : pyLower "newton" = "newton" := by decide
      unfold bishop88IFromV solveVd
      simp only [hl, if_true, hsn]
      rw [if_neg (by decide), hx1]
      dsimp only
      rw [bishop88_point hm x (evaluable h hxb) (fun h' => (dom_of_le hx3 hM.2 h').ne)]
    · have hcl := current_close hm h hd hM.2 hx2 hx3
      rw [hcc] at hcl
      have := mul_le_mul_of_nonneg_left hx4 (by linarith [(slope_facts h hM.2).1] : 0 ≤ -c.slope M)
      linarith

/-- Without recombination there is a solution for every voltage from zero up, … -/
theorem solution_at_voltage {p : Params} (hm : Matches p c) (h : Physical c) (hD : ¬ 0 < c.D) {v : ℝ} (hv : 0 ≤ v) :
    ∃ i, c.Solves i v ∧ 0 ≤ v + i * c.Rs := by
  obtain ⟨_, hc0, _⟩ := current_zero_nonneg h
  have hdom : ∀ x, c.dom x := fun x h' => absurd h' hD
  have h0 : (0 : ℝ) ≤ max v c.voc := le_max_of_le_left hv
  have hcont : ContinuousOn c.voltage (Set.Icc 0 (max v c.voc)) := fun x hx =>
    ((hasDerivAt_id x).sub ((hasDerivAt_current c x (evaluable h (lt_of_lt_of_le h.Vbr hx.1))
      (fun h' => absurd h' hD)).mul_const c.Rs)).continuousAt.continuousWithinAt
  have hlo : c.voltage 0 ≤ v := by
    have := mul_nonneg hc0 h.Rs
    simp only [Cell.voltage]; linarith
  have hhi : v ≤ c.voltage (max v c.voc) := by
    have h1 : c.voltage c.voc ≤ c.voltage (max v c.voc) := by
      rcases (le_max_right v c.voc).eq_or_lt with e | hlt
      · rw [← e]
      · exact (voltage_strictMono h hlt (hdom _)).le
    have hcur : c.current (max v c.voc) ≤ 0 := by
      have h2 := (voc_bound h (hdom _)).2.1
      rcases (le_max_right v c.voc).eq_or_lt with e | hlt
      · rw [← e]; exact h2
      · exact ((current_strictAnti h hlt (hdom _)).trans_le h2).le
    have := mul_nonpos_of_nonpos_of_nonneg hcur h.Rs
    have := le_max_left v c.voc
    simp only [Cell.voltage]; linarith
  obtain ⟨x, hx, hxv⟩ := intermediate_value_Icc h0 hcont ⟨hlo, hhi⟩
  refine ⟨c.current x, (solves_iff c _ _).mpr ⟨x, hdom x, rfl, hxv.symm⟩, ?_⟩
  rw [← hxv]
  have : c.voltage x + c.current x * c.Rs = x := by simp only [Cell.voltage]; ring
  rw [this]; exact hx.1

/-- **C211**: so Newton's method finds the current at every voltage from zero up, for every cell without recombination. -/
theorem newton_iFromV_all {p : Params} (hm : Matches p c) (h : Physical c) (hD : ¬ 0 < c.D) {v : ℝ} (hv : 0 ≤ v) :
    ∃ i, c.Solves i v ∧ ∃ K, ∀ tol, 0 < tol → ∃ N, ∀ maxiter, N ≤ maxiter → ∀ s : Solvers,
      (s.newton = fun f f' x0 => newtonRun tol f f' maxiter x0) →
      ∃ i', bishop88IFromV s (fin v) p "newton" = .ok (fin i') ∧ |i' - i| ≤ K * tol := by
  obtain ⟨i, hs, hx⟩ := solution_at_voltage hm h hD hv
  exact ⟨i, hs, (newton_iFromV hm h hs (lt_of_lt_of_le h.Vbr hv) (lt_of_lt_of_le h.Vbr hx) (fun h' => absurd h' hD)).2⟩

example := newton_iFromV_all demo_cell demo_physical (by norm_num) (v := 20) (by norm_num)

/-- **C211**: `bishop88_v_from_i` with `method='newton'`: Newton's iteration starts at `estimate_voc` (or just below the
built-in voltage).  It converges to the solution at every current for a cell without recombination, and with
recombination at every current not below the one at the starting point. -/
theorem newton_vFromI {p : Params} (hm : Matches p c) (h : Physical c) (hB : ¬ 0 < c.D → p.NsVbi = pinf) {i v : ℝ}
    (hs : c.Solves i v) (hd : c.Vbr < v + i * c.Rs) (hD : 0 < c.D → c.current c.searchEnd ≤ i) :
    (∃ x y : ℕ → ℝ, (∀ n, newtonSeq (fun x => (bishop88 x p).i - fin i) (fun x => (bishop88Grads x p).grad_i) (startPoint p) n =
        fin (x n)) ∧ (∀ n, x (n + 2) ≤ x (n + 1)) ∧ (∀ n, (bishop88 (fin (x n)) p).v = fin (y n)) ∧
        Filter.Tendsto y Filter.atTop (nhds v)) ∧
    ∃ K, ∀ tol, 0 < tol → ∃ N, ∀ maxiter, N ≤ maxiter → ∀ s : Solvers,
      (s.newton = fun f f' x0 => newtonRun tol f f' maxiter x0) →
      ∃ v', bishop88VFromI s (fin i) p "newton" = .ok (fin v') ∧ |v' - v| ≤ K * tol := by
  have hcc : c.current (v + i * c.Rs) = i := hs.2.symm
  have hvv : c.voltage (v + i * c.Rs) = v := by simp only [Cell.voltage, hcc]; ring
  have hr : c.dom (v + i * c.Rs) := hs.1
  obtain ⟨he0, hed, _⟩ := searchEnd_facts h
  have hconv := convex_current hm h hr hd hcc
  have hP : c.Vbr < c.searchEnd ∧ c.dom c.searchEnd := ⟨lt_of_lt_of_le h.Vbr he0, hed⟩
  have hst := step hconv hP
  have hP1 : c.Vbr < c.searchEnd - (i - c.current c.searchEnd) / -c.slope c.searchEnd ∧
      c.dom (c.searchEnd - (i - c.current c.searchEnd) / -c.slope c.searchEnd) := by
    refine ⟨lt_of_lt_of_le hd hst.1, fun h' => ?_⟩
    have hle : v + i * c.Rs ≤ c.searchEnd := by
      by_contra hlt
      have := current_strictAnti h (not_le.mp hlt) hr
      linarith [hD h']
    exact lt_of_le_of_lt (hst.2 hle).1 (hed h')
  rw [startPoint_fin hm h hB]
  constructor
  · obtain ⟨x, h1, h2, h3, h4, h5⟩ := seq_converges hconv hP hP1
    refine ⟨x, fun n => c.voltage (x n), h1, h4, fun n => ?_, ?_⟩
    · rw [bishop88_point hm (x n) (evaluable h (h2 n).1) (fun h' => ((h2 n).2 h').ne)]
    · have hcont := ((hasDerivAt_id (v + i * c.Rs)).sub ((hasDerivAt_current c _ (evaluable h hd)
        (fun h' => (hr h').ne)).mul_const c.Rs)).continuousAt.tendsto
      have hcont' : Filter.Tendsto c.voltage (nhds (v + i * c.Rs)) (nhds (c.voltage (v + i * c.Rs))) := hcont
      rw [hvv] at hcont'
      exact hcont'.comp h5
  · obtain ⟨K, M, hK, hM, hrM, hrun⟩ := run_converges hconv hP hP1
    refine ⟨K + -c.slope M * K * c.Rs, fun tol htol => ?_⟩
    obtain ⟨N, hN⟩ := hrun tol htol
    refine ⟨N, fun m hmN s hsn => ?_⟩
    obtain ⟨x, hx1, hx2, hx3, hx4⟩ := hN m hmN
    have hxb := lt_of_lt_of_le hd hx2
    refine ⟨c.voltage x, ?_, ?_⟩
    · have hl : pyLower "newton" = "newton" := by decide
      unfold bishop88VFromI solveVd
      simp only [hl, if_true, hsn]
      rw [if_neg (by decide), startPoint_fin hm h hB, hx1]
      dsimp only
      rw [bishop88_point hm x (evaluable h hxb) (fun h' => (dom_of_le hx3 hM.2 h').ne)]
    · have hcl := current_close hm h hd hM.2 hx2 hx3
      have h6 := mul_le_mul_of_nonneg_left hx4 (by linarith [(slope_facts h hM.2).1] : 0 ≤ -c.slope M)
      have h7 : |c.current x - c.current (v + i * c.Rs)| * c.Rs ≤ -c.slope M * (K * tol) * c.Rs :=
        mul_le_mul_of_nonneg_right (hcl.trans h6) h.Rs
      have h8 : c.voltage x - v = (x - (v + i * c.Rs)) - (c.current x - c.current (v + i * c.Rs)) * c.Rs := by
        rw [hcc]; simp only [Cell.voltage]; ring
      rw [h8]
      refine (abs_sub _ _).trans ?_
      rw [abs_mul, abs_of_nonneg h.Rs, abs_of_nonneg (by linarith : 0 ≤ x - (v + i * c.Rs))]
      linarith

/-- Without recombination there is a solution for every current up to the light current. -/
theorem solution_at_current {p : Params} (hm : Matches p c) (h : Physical c) (hD : ¬ 0 < c.D) {i : ℝ} (hi : i ≤ c.IL) :
    ∃ v, c.Solves i v ∧ 0 ≤ v + i * c.Rs := by
  have hdom : ∀ x, c.dom x := fun x h' => absurd h' hD
  have hr0 : c.recomb 0 = 0 := by simp [Cell.recomb, hD]
  set e := c.a * Real.log ((c.IL - i) / c.I0 + 1) with he
  have hq : 0 ≤ (c.IL - i) / c.I0 := div_nonneg (by linarith) h.I0.le
  have he0 : 0 ≤ e := mul_nonneg h.a.le (Real.log_nonneg (by linarith))
  have hcont : ContinuousOn c.current (Set.Icc 0 e) := fun x hx =>
    (hasDerivAt_current c x (evaluable h (lt_of_lt_of_le h.Vbr hx.1)) (fun h' => absurd h' hD)).continuousAt.continuousWithinAt
  have hend : c.current e ≤ i := by
    have h1 : e / c.a = Real.log ((c.IL - i) / c.I0 + 1) := by
      have := h.a.ne'
      rw [he]; field_simp
    have h2 : c.I0 * (Real.exp (e / c.a) - 1) = c.IL - i := by
      rw [h1, Real.exp_log (by linarith)]
      have := h.I0.ne'
      field_simp; ring
    have h3 := mul_nonneg he0 h.g
    simp only [Cell.current, h2, Cell.recomb, if_neg hD, Cell.avalanche, h.F]
    linarith
  have h0 : i ≤ c.current 0 := by
    simp [Cell.current, hr0, Cell.avalanche, h.F]
    exact hi
  obtain ⟨x, hx, hxi⟩ := intermediate_value_Icc' he0 hcont ⟨hend, h0⟩
  refine ⟨c.voltage x, (solves_iff c _ _).mpr ⟨x, hdom x, hxi.symm, rfl⟩, ?_⟩
  have : c.voltage x + i * c.Rs = x := by simp only [Cell.voltage, hxi]; ring
  rw [this]; exact hx.1

/-- **C211**: so Newton's method finds the voltage at every current up to the light current. -/
theorem newton_vFromI_all {p : Params} (hm : Matches p c) (h : Physical c) (hB : p.NsVbi = pinf) (hD : ¬ 0 < c.D) {i : ℝ}
    (hi : i ≤ c.IL) :
    ∃ v, c.Solves i v ∧ ∃ K, ∀ tol, 0 < tol → ∃ N, ∀ maxiter, N ≤ maxiter → ∀ s : Solvers,
      (s.newton = fun f f' x0 => newtonRun tol f f' maxiter x0) →
      ∃ v', bishop88VFromI s (fin i) p "newton" = .ok (fin v') ∧ |v' - v| ≤ K * tol := by
  obtain ⟨v, hs, hx⟩ := solution_at_current hm h hD hi
  exact ⟨v, hs, (newton_vFromI hm h (fun _ => hB) hs (lt_of_lt_of_le h.Vbr hx) (fun h' => absurd h' hD)).2⟩

example := newton_vFromI_all demo_cell demo_physical rfl (by norm_num) (i := 3) (by norm_num)

/-- The hypotheses of the general theorems are met, also for a cell with recombination (in the dark). -/
example := newton_iFromV demo_cell demo_physical
  (solution_at_voltage demo_cell demo_physical (by norm_num) (v := 20) (by norm_num)).choose_spec.1 (by norm_num)
  (lt_of_lt_of_le demo_physical.Vbr
    (solution_at_voltage demo_cell demo_physical (by norm_num) (v := 20) (by norm_num)).choose_spec.2) (by norm_num)

/-- A thin-film cell with recombination in the dark: no current at no voltage. -/
example : ∃ i v, (0 : ℝ) < 1.31 ∧ Cell.Solves ⟨0, 5e-10, 0.5, 1 / 300, 1.5, 1.31, 54, 0, -5.5, 3.28⟩ i v ∧ i ≤ 0 ∧ v < 54 :=
  ⟨0, 0, by norm_num, ⟨fun _ => by norm_num, by simp [Cell.recomb, Cell.avalanche]⟩, le_rfl, by norm_num⟩

end Pvlib.Props.SingleDiode
end
