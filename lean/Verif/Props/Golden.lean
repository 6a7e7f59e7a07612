import Verif.Model.ToolsMisc
import Verif.Props.Spec
import Mathlib.Analysis.SpecificLimits.Basic

/-! # Property C32: golden-section search -/

noncomputable section
open scoped Classical
namespace Pvlib.Props.Golden
open Fl Pvlib.Tools

/-- The golden ratio conjugate. -/
private def φ : ℝ := (Real.sqrt 5 - 1) / 2

private theorem phim1_eq : phim1 = fin φ := by
  simp [phim1, φ]

private theorem sqrt5 : (2.236 : ℝ) < Real.sqrt 5 ∧ Real.sqrt 5 < 2.237 := by
  constructor
  · rw [Real.lt_sqrt (by norm_num)]; norm_num
  · rw [Real.sqrt_lt' (by norm_num)]; norm_num

private theorem φ_lt : φ < 1 := by have := sqrt5; unfold φ; linarith
private theorem φ_gt : 1 / 2 < φ := by have := sqrt5; unfold φ; linarith

private theorem boolFl_pos {b : Prop} (h : b) : boolFl b = fin 1 := by simp [boolFl, h]
private theorem boolFl_neg {b : Prop} (h : ¬ b) : boolFl b = fin 0 := by simp [boolFl, h]

/-- A pass on an element with a finite bracket `[l, h]`. -/
private theorem pass_fin (func : Series → Series) (s : GoldState) (i : ℕ) (l h : ℝ)
    (hl : s.VL i = fin l) (hh : s.VH i = fin h) :
    (goldPass func s).V1 i = fin (l + φ * (h - l)) ∧ (goldPass func s).V2 i = fin (h - φ * (h - l)) ∧
    ((func (goldPass func s).V2 i < func (goldPass func s).V1 i ∧
        (goldPass func s).VL i = fin (h - φ * (h - l)) ∧ (goldPass func s).VH i = fin h) ∨
     (¬ func (goldPass func s).V2 i < func (goldPass func s).V1 i ∧
        (goldPass func s).VL i = fin l ∧ (goldPass func s).VH i = fin (l + φ * (h - l)))) := by
  refine ⟨by simp [goldPass, hl, hh, phim1_eq], by simp [goldPass, hl, hh, phim1_eq], ?_⟩
  by_cases hsw : func (goldPass func s).V2 i < func (goldPass func s).V1 i
  · left
    refine ⟨hsw, ?_, ?_⟩ <;>
    · simp only [goldPass] at hsw ⊢
      rw [boolFl_pos hsw, boolFl_neg (not_not.mpr hsw)]
      simp [hl, hh, phim1_eq]
  · right
    refine ⟨hsw, ?_, ?_⟩ <;>
    · simp only [goldPass] at hsw ⊢
      rw [boolFl_neg hsw, boolFl_pos hsw]
      simp [hl, hh, phim1_eq]

/-- An element whose bracket is not finite only produces NaN errors, and stays that way. -/
private def Bad (s : GoldState) (i : ℕ) : Prop := ¬ ((∃ l, s.VL i = fin l) ∧ ∃ h, s.VH i = fin h)

private theorem pass_bad (func : Series → Series) (s : GoldState) (i : ℕ) (hb : Bad s i) :
    Bad (goldPass func s) i ∧ Fl.abs ((goldPass func s).V2 i - (goldPass func s).V1 i) = nan := by
  have hφ : (0 : ℝ) < φ := by have := φ_gt; linarith
  have e1 : infSign φ = pinf := infSign_pos hφ
  have e2 : infSign (-φ) = ninf := infSign_neg (by linarith)
  unfold Bad at *
  rcases hl : s.VL i with _ | _ | l | _ <;> rcases hh : s.VH i with _ | _ | h | _ <;>
    simp_all [goldPass, phim1_eq]

private theorem isnan_iff (x : Fl) : isnan x ↔ x = nan := Iff.rfl

private theorem loop_some {n : ℕ} {func : Series → Series} {atol : Fl} :
    ∀ {fuel : ℕ} {s s' : GoldState}, goldLoop n func atol fuel s = some s' →
      ∃ k, s' = (goldPass func)^[k + 1] s ∧ goldConverged n atol s' := by
  intro fuel
  induction fuel with
  | zero => intro s s' h; simp [goldLoop] at h
  | succ fuel ih =>
    intro s s' h
    simp only [goldLoop] at h
    split_ifs at h with hc
    · simp only [Option.some.injEq] at h
      subst h
      exact ⟨0, rfl, hc⟩
    · obtain ⟨k, h1, h2⟩ := ih h
      exact ⟨k + 1, by rw [h1, ← Function.iterate_succ_apply], h2⟩

private theorem loop_stops {n : ℕ} {func : Series → Series} {atol : Fl} :
    ∀ (k : ℕ) (s : GoldState), goldConverged n atol ((goldPass func)^[k + 1] s) →
      ∃ r, ∀ fuel, k + 1 ≤ fuel → goldLoop n func atol fuel s = some r := by
  intro k
  induction k with
  | zero =>
    intro s h
    refine ⟨goldPass func s, fun fuel hf => ?_⟩
    obtain ⟨m, rfl⟩ : ∃ m, fuel = m + 1 := ⟨fuel - 1, by omega⟩
    simp only [goldLoop]
    exact if_pos h
  | succ k ih =>
    intro s h
    by_cases hc : goldConverged n atol (goldPass func s)
    · refine ⟨goldPass func s, fun fuel hf => ?_⟩
      obtain ⟨m, rfl⟩ : ∃ m, fuel = m + 1 := ⟨fuel - 1, by omega⟩
      simp only [goldLoop]
      rw [if_pos hc]
    · obtain ⟨r, hr⟩ := ih (goldPass func s) (by rw [← Function.iterate_succ_apply]; exact h)
      refine ⟨r, fun fuel hf => ?_⟩
      obtain ⟨m, rfl⟩ : ∃ m, fuel = m + 1 := ⟨fuel - 1, by omega⟩
      simp only [goldLoop]
      rw [if_neg hc]
      exact hr m (by omega)

/-- Bracket invariant after `k` passes: contained in the original interval, length `φ^k` of it. -/
private theorem iter_fin (func : Series → Series) (s : GoldState) (i : ℕ) (l u : ℝ) (hlu : l ≤ u)
    (hl : s.VL i = fin l) (hu : s.VH i = fin u) (k : ℕ) :
    ∃ a b : ℝ, ((goldPass func)^[k] s).VL i = fin a ∧ ((goldPass func)^[k] s).VH i = fin b ∧
      l ≤ a ∧ a ≤ b ∧ b ≤ u ∧ b - a = φ ^ k * (u - l) := by
  have h1 := φ_lt
  have h2 := φ_gt
  induction k with
  | zero => exact ⟨l, u, hl, hu, le_rfl, hlu, le_rfl, by simp⟩
  | succ k ih =>
    obtain ⟨a, b, ha, hb, h3, h4, h5, h6⟩ := ih
    rw [Function.iterate_succ_apply']
    have hw : 0 ≤ φ * (b - a) := by apply mul_nonneg <;> linarith
    have hw' : φ * (b - a) ≤ b - a := by nlinarith
    obtain ⟨-, -, h⟩ := pass_fin func _ i a b ha hb
    rcases h with ⟨-, h7, h8⟩ | ⟨-, h7, h8⟩
    · refine ⟨_, _, h7, h8, by linarith, by linarith, h5, ?_⟩
      rw [pow_succ, mul_comm (φ ^ k) φ, mul_assoc, ← h6]; ring
    · refine ⟨_, _, h7, h8, h3, by linarith, by linarith, ?_⟩
      rw [pow_succ, mul_comm (φ ^ k) φ, mul_assoc, ← h6]; ring

private theorem iter_bad (func : Series → Series) (s : GoldState) (i : ℕ) (hb : Bad s i) (k : ℕ) :
    Bad ((goldPass func)^[k] s) i := by
  induction k with
  | zero => exact hb
  | succ k ih => rw [Function.iterate_succ_apply']; exact (pass_bad func _ i ih).1

/-- The error test on an element with a finite bracket. -/
private theorem err_fin (func : Series → Series) (s : GoldState) (i : ℕ) (l h : ℝ) (hlh : l ≤ h)
    (hl : s.VL i = fin l) (hh : s.VH i = fin h) :
    Fl.abs ((goldPass func s).V2 i - (goldPass func s).V1 i) = fin ((2 * φ - 1) * (h - l)) := by
  obtain ⟨h1, h2, -⟩ := pass_fin func s i l h hl hh
  rw [h1, h2]
  simp only [fin_sub, abs_fin, fin_inj]
  have : 0 ≤ (2 * φ - 1) * (h - l) := by
    have := φ_gt
    apply mul_nonneg <;> linarith
  rw [show h - φ * (h - l) - (l + φ * (h - l)) = -((2 * φ - 1) * (h - l)) by ring, abs_neg, abs_of_nonneg this]

/-- **C32** (argument check): ValueError exactly when some upper bound is below its lower bound. -/
theorem golden_error_iff (n : ℕ) (lower upper : Series) (func : Series → Series) (atol : Fl) (fuel : ℕ) :
    goldenSect n lower upper func atol fuel = .error .valueError ↔ ∃ i < n, upper i - lower i < 0 := by
  simp only [goldenSect]
  constructor
  · intro h
    by_contra hc
    rw [if_neg hc] at h
    split at h <;> simp at h
  · intro h; rw [if_pos h]

example : goldenSect 2 (fun _ => fin 1) (fun i => fin (i : ℝ)) (fun c => c) (fin 1e-8) 5 = .error .valueError :=
  (golden_error_iff _ _ _ _ _ _).2 ⟨0, by norm_num, by rw [zero_eq]; simp only [fin_sub, fin_lt]; norm_num⟩

/-- **C32** (termination): whatever the objective, the number of elements and their intervals (NaN or
infinite bounds included), for every `atol > 0` the loop stops, and its result does not depend on how many
further passes are allowed. -/
theorem golden_terminates (n : ℕ) (lower upper : Series) (func : Series → Series) (atol : ℝ) (ha : 0 < atol)
    (hok : ¬ ∃ i < n, upper i - lower i < 0) :
    ∃ N r, ∀ fuel, N ≤ fuel → goldenSect n lower upper func (fin atol) fuel = .ok (some r) := by
  set s0 : GoldState := ⟨upper, lower, fun _ => 0, fun _ => 0⟩ with hs0
  have key : ∀ m ≤ n, ∃ K, ∀ k, K ≤ k → ∀ i < m,
      ¬ isnan (Fl.abs (((goldPass func)^[k + 1] s0).V2 i - ((goldPass func)^[k + 1] s0).V1 i)) →
      Fl.abs (((goldPass func)^[k + 1] s0).V2 i - ((goldPass func)^[k + 1] s0).V1 i) < fin atol := by
    intro m
    induction m with
    | zero => intro _; exact ⟨0, fun k _ i hi => absurd hi (by omega)⟩
    | succ m ih =>
      intro hm
      obtain ⟨K, hK⟩ := ih (by omega)
      by_cases hb : Bad s0 m
      · refine ⟨K, fun k hk i hi => ?_⟩
        rcases Nat.lt_succ_iff_lt_or_eq.mp hi with hi | rfl
        · exact hK k hk i hi
        · intro hn
          exfalso; apply hn
          rw [Function.iterate_succ_apply']
          exact (pass_bad func _ i (iter_bad func s0 i hb k)).2
      · unfold Bad at hb
        push Not at hb
        obtain ⟨⟨l, hl⟩, u, hu⟩ := hb
        have hlu : l ≤ u := by
          by_contra hc
          apply hok
          refine ⟨m, by omega, ?_⟩
          have hl' : lower m = fin l := hl
          have hu' : upper m = fin u := hu
          rw [hl', hu']; simp; linarith
        have h1 := φ_lt
        have h2 := φ_gt
        obtain ⟨K', hK'⟩ : ∃ K', φ ^ K' * (u - l) < atol := by
          have ht : Filter.Tendsto (fun k => φ ^ k * (u - l)) Filter.atTop (nhds (0 * (u - l))) :=
            (tendsto_pow_atTop_nhds_zero_of_lt_one (by linarith) h1).mul_const _
          rw [zero_mul] at ht
          have := (ht.eventually (gt_mem_nhds ha)).exists
          exact this
        refine ⟨max K K', fun k hk i hi => ?_⟩
        rcases Nat.lt_succ_iff_lt_or_eq.mp hi with hi | rfl
        · exact hK k (by omega) i hi
        · intro _
          obtain ⟨a, b, h3, h4, h5, h6, h7, h8⟩ := iter_fin func s0 i l u hlu hl hu k
          rw [Function.iterate_succ_apply', err_fin func _ i a b h6 h3 h4, fin_lt, h8]
          have h9 : φ ^ k ≤ φ ^ K' := pow_le_pow_of_le_one (by linarith) h1.le (by omega)
          have h10 : 0 ≤ φ ^ k * (u - l) := by
            apply mul_nonneg (pow_nonneg (by linarith) _); linarith
          have h11 : φ ^ k * (u - l) ≤ φ ^ K' * (u - l) := mul_le_mul_of_nonneg_right h9 (by linarith)
          nlinarith
  obtain ⟨K, hK⟩ := key n le_rfl
  obtain ⟨r, hr⟩ := loop_stops (n := n) (func := func) (atol := fin atol) K s0 (fun i hi => hK K le_rfl i hi)
  refine ⟨K + 1, (func (fun i => 0.5 * (r.V1 i + r.V2 i)),
    fun i => npwhere (isnan (func (fun i => 0.5 * (r.V1 i + r.V2 i)) i)) nan (0.5 * (r.V1 i + r.V2 i))),
    fun fuel hf => ?_⟩
  simp only [goldenSect]
  rw [if_neg hok, hr fuel hf]

private theorem golden_result {n : ℕ} {lower upper : Series} {func : Series → Series} {atol : Fl} {fuel : ℕ}
    {fr x : Series} (h : goldenSect n lower upper func atol fuel = .ok (some (fr, x))) :
    ∃ k, ∃ s', s' = (goldPass func)^[k + 1] ⟨upper, lower, fun _ => 0, fun _ => 0⟩ ∧ goldConverged n atol s' ∧
      fr = func (fun i => 0.5 * (s'.V1 i + s'.V2 i)) ∧
      x = fun i => npwhere (isnan (fr i)) nan (0.5 * (s'.V1 i + s'.V2 i)) := by
  simp only [goldenSect] at h
  split_ifs at h with hc
  cases hg : goldLoop n func atol fuel ⟨upper, lower, fun _ => 0, fun _ => 0⟩ with
  | none => rw [hg] at h; simp at h
  | some s' =>
    rw [hg] at h
    simp only [Except.ok.injEq, Option.some.injEq, Prod.mk.injEq] at h
    obtain ⟨k, h1, h2⟩ := loop_some hg
    refine ⟨k, s', h1, h2, h.1.symm, ?_⟩
    rw [← h.2, ← h.1]

private theorem golden_point {n : ℕ} {lower upper : Series} {func : Series → Series} {atol : Fl} {fuel : ℕ}
    {fr x : Series} (h : goldenSect n lower upper func atol fuel = .ok (some (fr, x))) (i : ℕ) (hi : i < n)
    (l u : ℝ) (hl : lower i = fin l) (hu : upper i = fin u) :
    ∃ k a b, ∃ s s' : GoldState, s = (goldPass func)^[k] ⟨upper, lower, fun _ => 0, fun _ => 0⟩ ∧
      s' = goldPass func s ∧ fr = func (fun i => 0.5 * (s'.V1 i + s'.V2 i)) ∧
      s.VL i = fin a ∧ s.VH i = fin b ∧ l ≤ a ∧ a ≤ b ∧ b ≤ u ∧
      0.5 * (s'.V1 i + s'.V2 i) = fin ((a + b) / 2) ∧
      fin ((2 * φ - 1) * (b - a)) < atol ∧ x i = npwhere (isnan (fr i)) nan (fin ((a + b) / 2)) := by
  have hlu : l ≤ u := by
    by_contra hc
    have he : ∃ i < n, upper i - lower i < 0 := ⟨i, hi, by rw [hl, hu]; simp; linarith⟩
    simp only [goldenSect] at h
    rw [if_pos he] at h
    simp at h
  obtain ⟨k, s', h1, h2, h3, h4⟩ := golden_result h
  obtain ⟨a, b, h5, h6, h7, h8, h9, h10⟩ :=
    iter_fin func ⟨upper, lower, fun _ => 0, fun _ => 0⟩ i l u hlu hl hu k
  have hs' : s' = goldPass func ((goldPass func)^[k] ⟨upper, lower, fun _ => 0, fun _ => 0⟩) := by
    rw [h1, Function.iterate_succ_apply']
  have hmid : 0.5 * (s'.V1 i + s'.V2 i) = fin ((a + b) / 2) := by
    obtain ⟨e1, e2, -⟩ := pass_fin func _ i a b h5 h6
    rw [hs', e1, e2]
    simp only [ofScientific_eq, fin_add, fin_mul, fin_inj]
    norm_num; ring
  refine ⟨k, a, b, _, s', rfl, hs', h3, h5, h6, h7, h8, h9, hmid, ?_, ?_⟩
  · have hc := h2 i hi
    rw [hs', err_fin func _ i a b h8 h5 h6] at hc
    exact hc (by simp)
  · rw [h4]
    show npwhere _ _ (0.5 * (s'.V1 i + s'.V2 i)) = _
    rw [hmid]

/-- **C32** (bracket): for an element with finite bounds the returned abscissa lies between them, and it is
NaN exactly when the returned objective value is NaN. -/
theorem golden_bracket (n : ℕ) (lower upper : Series) (func : Series → Series) (atol : Fl) (fuel : ℕ)
    (fr x : Series) (h : goldenSect n lower upper func atol fuel = .ok (some (fr, x))) (i : ℕ) (hi : i < n)
    (l u : ℝ) (hl : lower i = fin l) (hu : upper i = fin u) :
    (fr i = nan ∧ x i = nan) ∨ (fr i ≠ nan ∧ ∃ v, x i = fin v ∧ l ≤ v ∧ v ≤ u) := by
  obtain ⟨k, a, b, s, s', -, -, -, -, -, h1, h2, h3, -, -, h5⟩ := golden_point h i hi l u hl hu
  by_cases hn : fr i = nan
  · left
    exact ⟨hn, by rw [h5]; simp [npwhere, isnan, hn]⟩
  · right
    refine ⟨hn, (a + b) / 2, by rw [h5]; simp [npwhere, isnan, hn], by linarith, by linarith⟩

example : ∃ fuel fr x, goldenSect 1 (fun _ => fin 0) (fun _ => fin 3)
    (fun c _ => match c 0 with | fin v => fin (-(v - 1) ^ 2) | _ => nan) (fin 1e-8) fuel = .ok (some (fr, x)) ∧
    ((fr 0 = nan ∧ x 0 = nan) ∨ (fr 0 ≠ nan ∧ ∃ v, x 0 = fin v ∧ (0 : ℝ) ≤ v ∧ v ≤ 3)) := by
  obtain ⟨N, ⟨fr, x⟩, h⟩ := golden_terminates 1 (fun _ => fin 0) (fun _ => fin 3)
    (fun c _ => match c 0 with | fin v => fin (-(v - 1) ^ 2) | _ => nan) 1e-8 (by norm_num)
    (by rintro ⟨i, hi, h⟩; rw [zero_eq] at h; simp only [fin_sub, fin_lt] at h; norm_num at h)
  exact ⟨_, fr, x, h N le_rfl, golden_bracket _ _ _ _ _ _ _ _ (h N le_rfl) 0 (by norm_num) 0 3 rfl rfl⟩

/-- **C32** (the returned pair is consistent): for an elementwise objective the returned value is the
objective at the returned abscissa. -/
theorem golden_value (n : ℕ) (lower upper : Series) (f : ℕ → Fl → Fl) (atol : Fl) (fuel : ℕ)
    (fr x : Series) (h : goldenSect n lower upper (fun c i => f i (c i)) atol fuel = .ok (some (fr, x)))
    (i : ℕ) (hi : i < n) (l u : ℝ) (hl : lower i = fin l) (hu : upper i = fin u) (hne : fr i ≠ nan) :
    fr i = f i (x i) := by
  obtain ⟨k, a, b, s, s', -, -, h3, -, -, -, -, -, h4, -, h5⟩ := golden_point h i hi l u hl hu
  rw [h5, npwhere_neg (by simpa [isnan] using hne), h3]
  exact congrArg (f i) h4

example : ∃ fuel fr x, goldenSect 1 (fun _ => fin 0) (fun _ => fin 3)
    (fun c _ => match c 0 with | fin v => fin (-(v - 1) ^ 2) | _ => nan) (fin 1e-8) fuel = .ok (some (fr, x)) := by
  obtain ⟨N, ⟨fr, x⟩, h⟩ := golden_terminates 1 (fun _ => fin 0) (fun _ => fin 3)
    (fun c _ => match c 0 with | fin v => fin (-(v - 1) ^ 2) | _ => nan) 1e-8 (by norm_num)
    (by rintro ⟨i, hi, h⟩; rw [zero_eq] at h; simp only [fin_sub, fin_lt] at h; norm_num at h)
  exact ⟨_, fr, x, h N le_rfl⟩

/-- **C32** (accuracy): if, on an element's interval `[l, u]`, the objective is strictly increasing up to `m`
and strictly decreasing after it, the returned abscissa is within `(√5 + 2)/2 · atol ≈ 2.12 atol` of `m` —
whatever the other elements' intervals and objectives are. -/
theorem golden_maximiser (n : ℕ) (lower upper : Series) (func : Series → Series) (atol : ℝ) (fuel : ℕ)
    (fr x : Series) (h : goldenSect n lower upper func (fin atol) fuel = .ok (some (fr, x)))
    (i : ℕ) (hi : i < n) (l u m : ℝ) (hl : lower i = fin l) (hu : upper i = fin u) (g : ℝ → ℝ)
    (hg : ∀ (c : Series) (v : ℝ), c i = fin v → l ≤ v → v ≤ u → func c i = fin (g v))
    (hm : l ≤ m ∧ m ≤ u) (hup : StrictMonoOn g (Set.Icc l m)) (hdown : StrictAntiOn g (Set.Icc m u)) :
    ∃ v, x i = fin v ∧ |v - m| < (Real.sqrt 5 + 2) / 2 * atol := by
  obtain ⟨k, a, b, s, s', hs, hs', hfr, ha, hb, h1, h2, h3, hmid, herr, hx⟩ := golden_point h i hi l u hl hu
  have hφ1 := φ_lt
  have hφ2 := φ_gt
  have inv : ∀ k, ∃ a b : ℝ, ((goldPass func)^[k] ⟨upper, lower, fun _ => 0, fun _ => 0⟩).VL i = fin a ∧
      ((goldPass func)^[k] ⟨upper, lower, fun _ => 0, fun _ => 0⟩).VH i = fin b ∧ l ≤ a ∧ a ≤ b ∧ b ≤ u ∧
      a ≤ m ∧ m ≤ b := by
    intro k
    induction k with
    | zero => exact ⟨l, u, hl, hu, le_rfl, by linarith [hm.1, hm.2], le_rfl, hm.1, hm.2⟩
    | succ k ih =>
      obtain ⟨a, b, ha, hb, h1, h2, h3, h4, h5⟩ := ih
      rw [Function.iterate_succ_apply']
      obtain ⟨e1, e2, e3⟩ := pass_fin func _ i a b ha hb
      have hw : 0 ≤ φ * (b - a) := by apply mul_nonneg <;> linarith
      have hw' : φ * (b - a) ≤ b - a := by nlinarith
      have hw2 : b - a ≤ 2 * (φ * (b - a)) := by nlinarith
      have f1 := hg _ _ e1 (by linarith) (by linarith)
      have f2 := hg _ _ e2 (by linarith) (by linarith)
      rw [f1, f2, fin_lt] at e3
      rcases e3 with ⟨hsw, e3, e4⟩ | ⟨hsw, e3, e4⟩
      · refine ⟨_, _, e3, e4, by linarith, by linarith, h3, ?_, h5⟩
        by_contra hc
        push Not at hc
        have := hdown.antitoneOn (a := b - φ * (b - a)) (b := a + φ * (b - a)) ⟨hc.le, by linarith⟩
          ⟨by linarith, by linarith⟩ (by linarith)
        linarith
      · refine ⟨_, _, e3, e4, h1, by linarith, by linarith, h4, ?_⟩
        by_contra hc
        push Not at hc
        rcases eq_or_lt_of_le h2 with heq | hlt
        · subst heq; simp at hc; linarith
        · have hlt' : b - φ * (b - a) < a + φ * (b - a) := by nlinarith
          have := hup (a := b - φ * (b - a)) (b := a + φ * (b - a)) ⟨by linarith, by linarith⟩
            ⟨by linarith, hc.le⟩ hlt'
          exact hsw this
  obtain ⟨a', b', ha', hb', -, -, -, h4, h5⟩ := inv k
  rw [← hs, ha] at ha'
  rw [← hs, hb] at hb'
  simp only [fin_inj] at ha' hb'
  subst ha' hb'
  have hval : fr i = fin (g ((a + b) / 2)) := by
    rw [hfr]; exact hg _ _ hmid (by linarith) (by linarith)
  refine ⟨(a + b) / 2, by rw [hx, hval]; simp [npwhere], ?_⟩
  have hab : b - a < (Real.sqrt 5 + 2) * atol := by
    rw [fin_lt] at herr
    have h5 := sqrt5
    have hs5 : Real.sqrt 5 * Real.sqrt 5 = 5 := Real.mul_self_sqrt (by norm_num)
    have he : (2 * φ - 1) = Real.sqrt 5 - 2 := by unfold φ; ring
    rw [he] at herr
    have : (Real.sqrt 5 + 2) * ((Real.sqrt 5 - 2) * (b - a)) < (Real.sqrt 5 + 2) * atol :=
      mul_lt_mul_of_pos_left herr (by linarith)
    calc b - a = (Real.sqrt 5 * Real.sqrt 5 - 4) * (b - a) := by rw [hs5]; ring
      _ = (Real.sqrt 5 + 2) * ((Real.sqrt 5 - 2) * (b - a)) := by ring
      _ < _ := this
  rw [abs_lt]
  constructor <;> linarith

/-- Non-vacuity: maximising `-(v-1)^2` over `[0, 3]` next to an element with NaN bounds. -/
example : ∃ fuel fr x, goldenSect 2 (fun i => if i = 0 then fin 0 else nan) (fun i => if i = 0 then fin 3 else nan)
    (fun c i => match c i with | fin v => fin (-(v - 1) ^ 2) | _ => nan) (fin 1e-8) fuel = .ok (some (fr, x)) ∧
    ∃ v, x 0 = fin v ∧ |v - 1| < (Real.sqrt 5 + 2) / 2 * 1e-8 := by
  obtain ⟨N, ⟨fr, x⟩, h⟩ := golden_terminates 2 (fun i => if i = 0 then fin 0 else nan)
    (fun i => if i = 0 then fin 3 else nan)
    (fun c i => match c i with | fin v => fin (-(v - 1) ^ 2) | _ => nan) 1e-8 (by norm_num) (by
      rintro ⟨i, -, hi⟩
      by_cases h0 : i = 0 <;> simp [h0] at hi
      norm_num at hi)
  refine ⟨N, fr, x, h N le_rfl, ?_⟩
  refine golden_maximiser 2 _ _ _ 1e-8 N fr x (h N le_rfl) 0 (by norm_num) 0 3 1 (by simp) (by simp)
    (fun v => -(v - 1) ^ 2) (by intro c v hc _ _; simp [hc]) ⟨by norm_num, by norm_num⟩ ?_ ?_
  · intro a ha b hb hab
    simp only [Set.mem_Icc] at ha hb ⊢
    show -(a - 1) ^ 2 < -(b - 1) ^ 2
    nlinarith
  · intro a ha b hb hab
    simp only [Set.mem_Icc] at ha hb ⊢
    show -(b - 1) ^ 2 < -(a - 1) ^ 2
    nlinarith

end Pvlib.Props.Golden
end
