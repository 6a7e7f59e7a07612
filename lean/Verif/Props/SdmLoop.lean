import Verif.Props.SdmSteps

/-! # Property C147: the refinement loop of `fit_desoto_sandia` and `fit_pvsyst_sandia`

For every set of IV curves and every number of iterations: which curves are kept, that a dropped curve is never reinstated
nor changed, that the returned parameters of the kept curves are physical and reproduce the measured short circuit current,
and how often the loop runs. -/

noncomputable section
open scoped Classical
open Real
namespace Pvlib.Props.SdmLoop
open Fl Pvlib.Sdm Pvlib.SingleDiode Pvlib.PvFunctions Pvlib.Props.LambertW Pvlib.Props.SandiaSimple Pvlib.Props.Cocontent
  Pvlib.Props.SdmSteps

/-! ### Specification -/

/-- The filter keeps no curve outside the mask. -/
def Covers (lib : Sde.LinLib) (c : Curves) (s : State) : Prop := ∀ k, filterParams lib c s.io s.rs s.rsh k → s.u k

/-- The mask is the filter of the current parameters. -/
def Filtered (lib : Sde.LinLib) (c : Curves) (s : State) : Prop := ∀ k, s.u k ↔ filterParams lib c s.io s.rs s.rsh k

/-- The photocurrents are the ones that meet the short circuit currents (`iph_meets_isc`). -/
def MeetsIsc (c : Curves) (s : State) : Prop :=
  ∀ k, s.iph k = iphFormula (c.isc k) (s.io k) (s.rs k) (s.rsh k) (c.nnsvth k)

/-- What a user may rely on for the kept curves: for every kept curve `k` with real parameters, `io > 0`, `0 ≤ rs ≤ rsh`, the
short circuit current within 5 % of the fitted line, and `(0, isc)` on the curve. -/
def Physical (lib : Sde.LinLib) (c : Curves) (s : State) : Prop :=
  ∀ k, s.u k → ∀ i r sh e g j a : ℝ, s.io k = fin i → s.rs k = fin r → s.rsh k = fin sh → effSlope lib c = fin e →
    c.ee k = fin g → c.isc k = fin j → c.nnsvth k = fin a → 0 < j → 0 < a →
      0 < i ∧ 0 ≤ r ∧ r ≤ sh ∧ |e * g / 1000 - j| ≤ 0.05 * j ∧
        (0 < sh → ∃ l, s.iph k = fin l ∧ OnCurve l i r sh a 0 j)

private theorem physical_of {lib : Sde.LinLib} {c : Curves} {s : State} (hf : Filtered lib c s) (hm : MeetsIsc c s) :
    Physical lib c s := by
  intro k hk i r sh e g j a h1 h2 h3 h4 h5 h6 h7 hj ha
  obtain ⟨p1, p2, p3, p4⟩ := (filter_iff lib c s.io s.rs s.rsh k i r sh e g j h1 h2 h3 h4 h5 h6 hj).mp ((hf k).mp hk)
  refine ⟨p3, p1, p2, p4, fun hs => ?_⟩
  obtain ⟨l, hl, hc⟩ := iph_meets_isc j i r sh a hs.ne' ha.ne'
  exact ⟨l, by rw [hm k, h6, h1, h2, h3, h7, hl], (hc l).mpr rfl⟩

/-! ### One pass -/

private theorem put_of_not {u : ℕ → Prop} {new old : Series} {k : ℕ} (h : ¬ u k) : put u new old k = old k := if_neg h

private theorem filter_congr {lib : Sde.LinLib} {c : Curves} {io rs rsh io' rs' rsh' : Series} {k : ℕ} (h1 : io k = io' k)
    (h2 : rs k = rs' k) (h3 : rsh k = rsh' k) : filterParams lib c io rs rsh k ↔ filterParams lib c io' rs' rsh' k := by
  unfold filterParams
  rw [h1, h2, h3]

/-- **C147, one pass.**  After a pass the mask is the filter of the new parameters and the photocurrents meet the short
circuit currents; the curves not kept before are not kept afterwards, and their `io`, `rs` and `rsh` are unchanged. -/
theorem refine_step {num : Numerics} {lib : Sde.LinLib} {c : Curves} {s s' : State} (hs : Covers lib c s)
    (h : refineStep num lib c s = .ok s') :
    Filtered lib c s' ∧ MeetsIsc c s' ∧ (∀ k, s'.u k → s.u k) ∧
      ∀ k, ¬ s.u k → s'.io k = s.io k ∧ s'.rs k = s.rs k ∧ s'.rsh k = s.rsh k := by
  unfold refineStep at h
  dsimp only at h
  generalize hrsh : put s.u (fun k => updateRsh num (c.vmp k) (c.imp k) (s.iph k) (s.io k) (s.rsh k) (c.nnsvth k)) s.rsh =
    rsh at h
  generalize hrs : put s.u (fun k => rsFormula num (c.vmp k) (c.imp k) (s.iph k) (s.io k) (rsh k) (c.nnsvth k)) s.rs = rs at h
  have hnot : ∀ k, ¬ s.u k → ¬ filterParams lib c s.io rs rsh k := by
    intro k hk hf
    apply hk
    apply hs k
    refine (filter_congr rfl ?_ ?_).mp hf
    · rw [← hrs]; exact put_of_not hk
    · rw [← hrsh]; exact put_of_not hk
  cases hu : updateIo num c s.iph s.io rs rsh (sel c.n (filterParams lib c s.io rs rsh)) with
  | error e => simp only [hu] at h; cases h
  | ok new =>
    simp only [hu, Except.ok.injEq] at h
    subst h
    have hio : ∀ k, ¬ s.u k → put (filterParams lib c s.io rs rsh) new s.io k = s.io k := fun k hk => put_of_not (hnot k hk)
    refine ⟨fun k => Iff.rfl, fun k => rfl, fun k hk => ?_, fun k hk => ⟨hio k hk, ?_, ?_⟩⟩
    · by_contra hc
      apply hnot k hc
      exact (filter_congr (hio k hc) rfl rfl).mp hk
    · exact (congrFun hrs k).symm.trans (put_of_not hk)
    · exact (congrFun hrsh k).symm.trans (put_of_not hk)

/-! ### The whole loop -/

/-- A run of the loop: `st 0` is the initial state, each next state is one pass further, `st m` is returned. -/
structure Run (num : Numerics) (lib : Sde.LinLib) (c : Curves) (s s' : State) (m : ℕ) (st : ℕ → State) : Prop where
  first : st 0 = s
  last : st m = s'
  step : ∀ i < m, refineStep num lib c (st i) = .ok (st (i + 1)) ∧ sel c.n (st (i + 1)).u ≠ []

/-- The convergence statistics of a state. -/
def statsOf (num : Numerics) (c : Curves) (s : State) : Stats := checkConverge c (points num c s) (sel c.n s.u)

private theorem loop_run (num : Numerics) (lib : Sde.LinLib) (c : Curves) (eps1 : Fl) :
    ∀ fuel prev s s', updateLoop num lib c eps1 fuel prev s = .ok s' →
      ∃ m st, Run num lib c s s' m st ∧ m ≤ fuel ∧ (0 < fuel → 1 ≤ m) ∧
        ((prev = none ∧ eps1 ≤ pinf) → 2 ≤ fuel → 2 ≤ m) ∧
        (m < fuel → ∀ x ∈ changes (if m = 1 then prev else some (statsOf num c (st (m - 1)))) (statsOf num c (st m)),
          ¬ eps1 ≤ x) := by
  intro fuel
  induction fuel with
  | zero =>
    intro prev s s' h
    simp only [updateLoop, Except.ok.injEq] at h
    subst h
    exact ⟨0, fun _ => s, ⟨rfl, rfl, by simp⟩, le_rfl, by simp, by simp, by simp⟩
  | succ fuel ih =>
    intro prev s s' h
    simp only [updateLoop] at h
    cases hr : refineStep num lib c s with
    | error e => simp only [hr] at h; cases h
    | ok s1 =>
      simp only [hr] at h
      by_cases he : sel c.n s1.u = []
      · rw [if_pos he] at h; cases h
      · rw [if_neg he] at h
        by_cases hx : ∃ x ∈ changes prev (checkConverge c (points num c s1) (sel c.n s1.u)), eps1 ≤ x
        · rw [if_pos hx] at h
          obtain ⟨m, st, hrun, hm, hm1, -, hm3⟩ := ih _ s1 s' h
          refine ⟨m + 1, fun i => if i = 0 then s else st (i - 1), ⟨rfl, ?_, ?_⟩, by omega, fun _ => by omega,
            fun _ h2 => ?_, ?_⟩
          · simpa using hrun.last
          · intro i hi
            rcases i with _ | i
            · simp only [if_true, Nat.zero_add, one_ne_zero, if_false, Nat.sub_self, hrun.first]
              exact ⟨hr, he⟩
            · have := hrun.step i (by omega)
              simpa using this
          · have := hm1 (by omega); omega
          · intro hlt
            have h1 : 1 ≤ m := hm1 (by omega)
            have := hm3 (by omega)
            rw [if_neg (show ¬ m + 1 = 1 by omega)]
            simp only [Nat.add_sub_cancel, if_neg (show ¬ m + 1 = 0 by omega), if_neg (show ¬ m = 0 by omega)]
            rcases m with _ | _ | m
            · omega
            · simp only [Nat.zero_add, if_true] at this
              simp only [Nat.zero_add, Nat.sub_self, hrun.first]
              exact this
            · rw [if_neg (show ¬ m + 1 + 1 = 1 by omega)] at this
              exact this
        · rw [if_neg hx, Except.ok.injEq] at h
          subst h
          refine ⟨1, fun i => if i = 0 then s else s1, ⟨rfl, rfl, ?_⟩, by omega, fun _ => le_rfl, ?_, fun _ => ?_⟩
          · intro i hi
            obtain rfl : i = 0 := by omega
            exact ⟨hr, he⟩
          · rintro ⟨rfl, hp⟩ -
            exact absurd ⟨pinf, by simp [changes], hp⟩ hx
          · intro x hxm hle
            exact hx ⟨x, hxm, hle⟩

/-- **C147, number of passes.**  When the refinement returns, it has made `m ≤ maxiter` passes: at least one if
`maxiter ≥ 1`, at least two if `maxiter ≥ 2` (the first pass never counts as converged), and fewer than `maxiter` only if
none of the nine statistics of the errors at the maximum power point changed by `eps1` or more in the last pass. -/
theorem loop_passes (num : Numerics) (lib : Sde.LinLib) (c : Curves) (e : ℝ) (maxiter : ℕ) (s s' : State)
    (h : updateIvParams num lib c s maxiter (fin e) = .ok s') :
    ∃ m st, Run num lib c s s' m st ∧ min 2 maxiter ≤ m ∧ m ≤ maxiter ∧
      (m < maxiter → ∀ x ∈ changes (some (statsOf num c (st (m - 1)))) (statsOf num c (st m)), ¬ fin e ≤ x) := by
  obtain ⟨m, st, hr, h1, h2, h3, h4⟩ := loop_run num lib c (fin e) maxiter none s s' h
  refine ⟨m, st, hr, ?_, h1, fun hlt => ?_⟩
  · rcases Nat.lt_or_ge maxiter 2 with hc | hc
    · rcases Nat.eq_zero_or_pos maxiter with h0 | h0
      · omega
      · have := h2 h0; omega
    · have := h3 ⟨rfl, by simp⟩ hc; omega
  · have := h4 hlt
    have hm : m ≠ 1 := by
      intro hm
      rcases Nat.lt_or_ge maxiter 2 with hc | hc
      · omega
      · have := h3 ⟨rfl, by simp⟩ hc; omega
    rwa [if_neg hm] at this

/-- The kept curves of a state. -/
def keptCurves (c : Curves) (s : State) : List ℕ := (List.range c.n).filter fun k => s.u k

/-- Percentage errors of the modelled maximum power points of the kept curves: of current, voltage and power (`imp * vmp`). -/
def mppErrors (num : Numerics) (c : Curves) (s : State) : List (List Fl) :=
  [(keptCurves c s).map fun k => ((points num c s k).i_mp - c.imp k) / c.imp k * 100,
   (keptCurves c s).map fun k => ((points num c s k).v_mp - c.vmp k) / c.vmp k * 100,
   (keptCurves c s).map fun k => ((points num c s k).p_mp - c.imp k * c.vmp k) / (c.imp k * c.vmp k) * 100]

/-- Largest absolute value, mean, and standard deviation with one degree of freedom removed. -/
def errorStatistics : List (List Fl → Fl) :=
  [fun xs => pyMax (xs.map Fl.abs), fun xs => Fl.sum xs / fin xs.length,
   fun xs => Fl.sqrt (Fl.sum (xs.map fun x => (x - Fl.sum xs / fin xs.length) ^ 2) / fin ((xs.length : ℝ) - 1))]

/-- **C147, convergence.**  The refinement stops before `maxiter` passes only when, for each of current, voltage and power at the
maximum power point, each of the three statistics of the percentage errors moved, relative to its value one pass
earlier, by less than `eps1` (or the comparison involves NaN). -/
theorem convergence_meaning (num : Numerics) (lib : Sde.LinLib) (c : Curves) (e : ℝ) (maxiter : ℕ) (s s' : State)
    (h : updateIvParams num lib c s maxiter (fin e) = .ok s') :
    ∃ m st, Run num lib c s s' m st ∧ m ≤ maxiter ∧ (m < maxiter → ∀ f ∈ errorStatistics, ∀ (q : ℕ) (now before : List Fl),
      (mppErrors num c (st m))[q]? = some now → (mppErrors num c (st (m - 1)))[q]? = some before →
        ¬ fin e ≤ Fl.abs (f now / f before - 1)) := by
  obtain ⟨m, st, hr, -, hm, hc⟩ := loop_passes num lib c e maxiter s s' h
  refine ⟨m, st, hr, hm, fun hlt f hf q now before h1 h2 => ?_⟩
  have := hc hlt
  simp only [errorStatistics, List.mem_cons, List.not_mem_nil, or_false] at hf
  have hq : q < 3 := by
    by_contra hq
    rw [List.getElem?_eq_none (by simpa [mppErrors] using hq)] at h1
    cases h1
  rcases hf with rfl | rfl | rfl <;> interval_cases q <;> cases h1 <;> cases h2 <;>
    (refine this _ ?_; unfold changes; dsimp only; simp only [List.mem_cons];
     first
     | exact Or.inl rfl
     | exact Or.inr (Or.inl rfl)
     | exact Or.inr (Or.inr (Or.inl rfl))
     | exact Or.inr (Or.inr (Or.inr (Or.inl rfl)))
     | exact Or.inr (Or.inr (Or.inr (Or.inr (Or.inl rfl))))
     | exact Or.inr (Or.inr (Or.inr (Or.inr (Or.inr (Or.inl rfl)))))
     | exact Or.inr (Or.inr (Or.inr (Or.inr (Or.inr (Or.inr (Or.inl rfl))))))
     | exact Or.inr (Or.inr (Or.inr (Or.inr (Or.inr (Or.inr (Or.inr (Or.inl rfl)))))))
     | exact Or.inr (Or.inr (Or.inr (Or.inr (Or.inr (Or.inr (Or.inr (Or.inr (Or.inl rfl)))))))))

/-- **C147, dropped curves.**  Along every run, a curve that is not kept at some pass is not kept at any later pass, and its
`io`, `rs` and `rsh` never change again. -/
theorem dropped_forever {num : Numerics} {lib : Sde.LinLib} {c : Curves} {s s' : State} {m : ℕ} {st : ℕ → State}
    (hr : Run num lib c s s' m st) (hs : Covers lib c s) {i j : ℕ} (hij : i ≤ j) (hj : j ≤ m) {k : ℕ}
    (hk : ¬ (st i).u k) :
    ¬ (st j).u k ∧ (st j).io k = (st i).io k ∧ (st j).rs k = (st i).rs k ∧ (st j).rsh k = (st i).rsh k := by
  have hcov : ∀ i ≤ m, Covers lib c (st i) := by
    intro i
    induction i with
    | zero => intro _; rw [hr.first]; exact hs
    | succ i ih =>
      intro hi
      exact fun k => ((refine_step (ih (by omega)) (hr.step i (by omega)).1).1 k).mpr
  induction j, hij using Nat.le_induction with
  | base => exact ⟨hk, rfl, rfl, rfl⟩
  | succ j hij ih =>
    obtain ⟨h1, h2, h3, h4⟩ := ih (by omega)
    obtain ⟨-, -, r3, r4⟩ := refine_step (hcov j (by omega)) (hr.step j (by omega)).1
    obtain ⟨q1, q2, q3⟩ := r4 k h1
    exact ⟨fun h => h1 (r3 k h), by rw [q1, h2], by rw [q2, h3], by rw [q3, h4]⟩

/-- **C147, result of the loop.**  For every `maxiter ≥ 1`: the returned mask is the filter of the returned parameters, at
least one curve is kept, all the kept curves were kept initially, and the kept curves are physical. -/
theorem loop_result {num : Numerics} {lib : Sde.LinLib} {c : Curves} {s s' : State} (hs : Covers lib c s) {maxiter : ℕ}
    (hm : 1 ≤ maxiter) {eps1 : Fl} (h : updateIvParams num lib c s maxiter eps1 = .ok s') :
    Filtered lib c s' ∧ MeetsIsc c s' ∧ Physical lib c s' ∧ (∃ k < c.n, s'.u k) ∧ ∀ k, s'.u k → s.u k := by
  obtain ⟨m, st, hr, h1, h2, -, -⟩ := loop_run num lib c eps1 maxiter none s s' h
  have hm1 := h2 (by omega)
  obtain ⟨m', rfl⟩ : ∃ m', m = m' + 1 := ⟨m - 1, by omega⟩
  have hcov : ∀ i ≤ m' + 1, Covers lib c (st i) := by
    intro i
    induction i with
    | zero => intro _; rw [hr.first]; exact hs
    | succ i ih =>
      intro hi
      exact fun k => ((refine_step (ih (by omega)) (hr.step i (by omega)).1).1 k).mpr
  obtain ⟨r1, r2, -, -⟩ := refine_step (hcov m' (by omega)) (hr.step m' (by omega)).1
  have hne := (hr.step m' (by omega)).2
  rw [hr.last] at r1 r2 hne
  refine ⟨r1, r2, physical_of r1 r2, ?_, fun k hk => ?_⟩
  · obtain ⟨k, hk⟩ := List.exists_mem_of_ne_nil _ hne
    rw [sel, List.mem_filter, List.mem_range] at hk
    exact ⟨k, hk.1, by simpa using hk.2⟩
  · by_contra hc
    rw [← hr.last] at hk
    exact (dropped_forever hr hs (Nat.zero_le (m' + 1)) le_rfl (by rwa [hr.first])).1 hk

/-- **C147, no iterations.**  With `maxiter = 0` the initial parameters are returned. -/
theorem no_iterations (num : Numerics) (lib : Sde.LinLib) (c : Curves) (s : State) (eps1 : Fl) :
    updateIvParams num lib c s 0 eps1 = .ok s := rfl

/-! ### The initial values -/

private theorem init_step {num : Numerics} {lib : Sde.LinLib} {c : Curves} {pts : ℕ → List (Fl × Fl)} {rsh : Series} :
    ∀ j s, initLoop num lib c pts rsh j = .ok s →
      s.rsh = rsh ∧ (1 ≤ j → Covers lib c s ∧ MeetsIsc c s) ∧
      ∀ k < j, ¬ 0 < rsh k → s.io k = nan ∧ ¬ s.u k := by
  intro j
  induction j with
  | zero => intro s h; simp only [initLoop, Except.ok.injEq] at h; subst h; exact ⟨rfl, by simp, by simp⟩
  | succ j ih =>
    intro s h
    simp only [initLoop] at h
    cases h0 : initLoop num lib c pts rsh j with
    | error e => simp only [h0] at h; cases h
    | ok s0 =>
      simp only [h0] at h
      obtain ⟨i1, i2, i3⟩ := ih s0 h0
      generalize hp : initCurve (pts j) (c.voc j) (c.isc j) (rsh j) (c.nnsvth j) = p at h
      generalize hu : updateIo num c (setAt s0.iph j (initPhotocurrent (c.isc j) (rsh j) (c.nnsvth j) p.1 p.2))
        (setAt s0.io j p.1) (setAt s0.rs j p.2) rsh
        (sel c.n (filterParams lib c (setAt s0.io j p.1) (setAt s0.rs j p.2) rsh)) = r at h
      cases r with
      | error e => simp only at h; cases h
      | ok new =>
        simp only [Except.ok.injEq] at h
        subst h
        have hnan : ∀ k < j + 1, ¬ 0 < rsh k → setAt s0.io j p.1 k = nan := by
          intro k hk hr
          unfold setAt
          rcases Nat.lt_succ_iff_lt_or_eq.mp hk with h | h
          · rw [if_neg (by omega)]; exact (i3 k h hr).1
          · rw [if_pos h, ← hp]
            subst h
            simp only [initCurve, if_neg hr]
        refine ⟨rfl, fun _ => ⟨fun k hk => ?_, fun k => rfl⟩, fun k hk hr => ?_⟩
        · by_contra hc
          apply hc
          have hc' : ¬ filterParams lib c (setAt s0.io j p.1) (setAt s0.rs j p.2) rsh k := hc
          exact (filter_congr (put_of_not hc') rfl rfl).mp hk
        · have hn : ¬ filterParams lib c (setAt s0.io j p.1) (setAt s0.rs j p.2) rsh k :=
            filter_nan _ _ _ _ _ _ (Or.inl (hnan k hk hr))
          exact ⟨(put_of_not hn).trans (hnan k hk hr), hn⟩

/-- **C147, starting point.**  The saturation current a curve starts from puts its measured open circuit point on the curve
`isc - io * exp(v / a) - v / rsh`, without series resistance. -/
theorem initial_io (pts : List (Fl × Fl)) (voc isc rsh a : ℝ) (hr : 0 < rsh) (ha : a ≠ 0) :
    ∃ io, (initCurve pts (fin voc) (fin isc) (fin rsh) (fin a)).1 = fin io ∧ isc - io * Real.exp (voc / a) - voc / rsh = 0 := by
  refine ⟨(isc - voc / rsh) * Real.exp (-voc / a), ?_, ?_⟩
  · unfold initCurve
    rw [if_pos (by rw [zero_eq]; exact fin_lt.mpr hr)]
    dsimp only
    rw [fin_div hr.ne', fin_sub, neg_fin, fin_div ha, exp_fin, fin_mul]
  · rw [mul_assoc, ← Real.exp_add]
    have : -voc / a + voc / a = 0 := by ring
    rw [this, Real.exp_zero]
    ring

/-- **C147, initial values.**  Whatever the curves: the initial photocurrents meet the short circuit currents, no curve
outside the mask passes the filter, the shunt resistances are those given, and a curve whose shunt resistance is not
positive (or NaN) is not kept. -/
theorem initial_values {num : Numerics} {lib : Sde.LinLib} {c : Curves} {pts : ℕ → List (Fl × Fl)} {rsh : Series} {s : State}
    (h : initialIvParams num lib c pts rsh = .ok s) :
    Covers lib c s ∧ MeetsIsc c s ∧ s.rsh = rsh ∧ ∀ k < c.n, ¬ 0 < rsh k → ¬ s.u k := by
  unfold initialIvParams at h
  by_cases h0 : c.n = 0
  · rw [if_pos h0] at h; cases h
  · rw [if_neg h0] at h
    obtain ⟨h1, h2, h3⟩ := init_step _ _ h
    obtain ⟨a, b⟩ := h2 (by omega)
    exact ⟨a, b, h1, fun k hk hr => (h3 k hk hr).2⟩

/-- **C147, finding.**  The refinement of `io` sits inside the loop over the curves: the first curve is refined once for
every curve of the data set, before the values of the later ones exist (they enter with the placeholder 1). -/
theorem placeholder_refined (num : Numerics) (lib : Sde.LinLib) (c : Curves) (pts : ℕ → List (Fl × Fl)) (rsh : Series)
    (k : ℕ) (hk : k ≠ 0) {s : State} (hs : initLoop num lib c pts rsh 1 = .ok s) (hr : 1 ≤ rsh k) (hl : linearIsc lib c k) : s.u k ∧ s.rs k = 1 := by
  simp only [initLoop] at hs
  generalize hp : initCurve (pts 0) (c.voc 0) (c.isc 0) (rsh 0) (c.nnsvth 0) = p at hs
  generalize hu : updateIo num c (setAt (fun _ => 1) 0 (initPhotocurrent (c.isc 0) (rsh 0) (c.nnsvth 0) p.1 p.2))
    (setAt (fun _ => 1) 0 p.1) (setAt (fun _ => 1) 0 p.2) rsh
    (sel c.n (filterParams lib c (setAt (fun _ => 1) 0 p.1) (setAt (fun _ => 1) 0 p.2) rsh)) = r at hs
  cases r with
  | error e => simp only at hs; cases hs
  | ok new =>
    simp only [Except.ok.injEq] at hs
    subst hs
    refine ⟨⟨?_, hl⟩, if_neg hk⟩
    simp only [setAt, if_neg hk]
    generalize rsh k = R at *
    cases R <;> simp_all [goodR, isnan, one_eq, zero_eq]
    linarith

/-! ### The public functions -/

/-- **C147, De Soto.**  Whenever `fit_desoto_sandia` returns (with `maxiter ≥ 1`): some curve is kept, the kept curves are
physical and pass through the measured short circuit points, the mask is the filter of the returned parameters; curves whose
co-content estimate of the shunt resistance is not positive are not kept; `a_ref` and `cells_in_series` are as documented
with the fitted diode factor `n0`. -/
theorem desoto_result {num : Numerics} {lib : Sde.LinLib} {fl : FitLib} {iv : IvCurves} {cells alpha_sc beta_voc : Fl} {K : Const}
    {maxiter : ℕ} (hm : 1 ≤ maxiter) {eps1 : Fl} {r : DesotoFit}
    (h : fitDesotoSandia num lib fl iv cells alpha_sc beta_voc K maxiter eps1 = .ok r) :
    ∃ n0 rsh0, desotoDiode fl K iv cells beta_voc = .ok n0 ∧ initRsh lib iv (vthOf K iv) cells iv.n = .ok rsh0 ∧
      r.a_ref = n0 * cells * K.k / K.q * (K.T0 + fin 273.15) ∧ r.cells_in_series = cells ∧
      (let c := curvesOf iv fun k => n0 * cells * vthOf K iv k
       Filtered lib c r.state ∧ Physical lib c r.state ∧ MeetsIsc c r.state ∧ (∃ k < iv.n, r.state.u k) ∧
       ∀ k < iv.n, ¬ 0 < rsh0.getD k nan → ¬ r.state.u k) := by
  unfold fitDesotoSandia at h
  cases h1 : initRsh lib iv (vthOf K iv) cells iv.n with
  | error e => simp only [h1] at h; cases h
  | ok rsh =>
    cases h2 : desotoDiode fl K iv cells beta_voc with
    | error e => simp only [h1, h2] at h; cases h
    | ok n0 =>
      simp only [h1, h2] at h
      by_cases hn : isnan n0
      · rw [if_pos hn] at h; cases h
      · rw [if_neg hn] at h
        cases h3 : initialIvParams num lib (curvesOf iv fun k => n0 * cells * vthOf K iv k) iv.pts (fun k => rsh.getD k nan) with
        | error e => simp only [h3] at h; cases h
        | ok s =>
          simp only [h3] at h
          cases h4 : updateIvParams num lib (curvesOf iv fun k => n0 * cells * vthOf K iv k) s maxiter eps1 with
          | error e => simp only [h4] at h; cases h
          | ok s' =>
            simp only [h4] at h
            cases h5 : extractDesoto fl (curvesOf iv fun k => n0 * cells * vthOf K iv k) K iv.tc alpha_sc s' with
            | error e => simp only [h5] at h; cases h
            | ok p =>
              simp only [h5, Except.ok.injEq] at h
              subst h
              obtain ⟨i1, i2, i3, i4⟩ := initial_values h3
              obtain ⟨l1, l2, l3, l4, l5⟩ := loop_result i1 hm h4
              exact ⟨n0, rsh, rfl, rfl, rfl, rfl, l1, l3, l2, l4, fun k hk hr hu => i4 k hk hr (l5 k hu)⟩

/-- **C147, PVsyst.**  The same for `fit_pvsyst_sandia`, with `gamma = gamma_ref + mu_gamma (T - T0)`. -/
theorem pvsyst_result {num : Numerics} {lib : Sde.LinLib} {fl : FitLib} {iv : IvCurves} {cells alpha_sc : Fl} {K : Const}
    {maxiter : ℕ} (hm : 1 ≤ maxiter) {eps1 : Fl} {r : PvsystFit}
    (h : fitPvsystSandia num lib fl iv cells alpha_sc K maxiter eps1 = .ok r) :
    ∃ rsh0, initRsh lib iv (vthOf K iv) cells iv.n = .ok rsh0 ∧ r.cells_in_series = cells ∧
      r.gamma_ref ≠ nan ∧ r.mu_gamma ≠ nan ∧
      (let c := curvesOf iv fun k => (r.gamma_ref + r.mu_gamma * (iv.tc k - K.T0)) * (vthOf K iv k * cells)
       Filtered lib c r.state ∧ Physical lib c r.state ∧ MeetsIsc c r.state ∧ (∃ k < iv.n, r.state.u k) ∧
       ∀ k < iv.n, ¬ 0 < rsh0.getD k nan → ¬ r.state.u k) := by
  unfold fitPvsystSandia at h
  cases h1 : initRsh lib iv (vthOf K iv) cells iv.n with
  | error e => simp only [h1] at h; cases h
  | ok rsh =>
    simp only [h1] at h
    generalize hg : pvsystGammaFit lib K iv (fun k => rsh.getD k nan) cells = g at h
    by_cases hn : isnan g.1 ∨ isnan g.2
    · rw [if_pos hn] at h; cases h
    · rw [if_neg hn] at h
      cases h3 : initialIvParams num lib (curvesOf iv fun k => (g.1 + g.2 * (iv.tc k - K.T0)) * (vthOf K iv k * cells)) iv.pts
          (fun k => rsh.getD k nan) with
      | error e => simp only [h3] at h; cases h
      | ok s =>
        simp only [h3] at h
        cases h4 : updateIvParams num lib (curvesOf iv fun k => (g.1 + g.2 * (iv.tc k - K.T0)) * (vthOf K iv k * cells)) s
            maxiter eps1 with
        | error e => simp only [h4] at h; cases h
        | ok s' =>
          simp only [h4] at h
          cases h5 : extractPvsyst fl (curvesOf iv fun k => (g.1 + g.2 * (iv.tc k - K.T0)) * (vthOf K iv k * cells)) K iv.tc
              (fun k => g.1 + g.2 * (iv.tc k - K.T0)) alpha_sc s' with
          | error e => simp only [h5] at h; cases h
          | ok p =>
            simp only [h5, Except.ok.injEq] at h
            subst h
            obtain ⟨i1, i2, i3, i4⟩ := initial_values h3
            obtain ⟨l1, l2, l3, l4, l5⟩ := loop_result i1 hm h4
            push Not at hn
            exact ⟨rsh, rfl, rfl, hn.1, hn.2, l1, l3, l2, l4, fun k hk hr hu => i4 k hk hr (l5 k hu)⟩

/-! ### Witness: a curve on which the loop returns -/

private def wNum : Numerics := ⟨fun _ => fin 1, fun _ => fin 1, fun _ => False, fun _ _ => (nan, nan),
  ⟨fun _ _ _ => .ok nan, fun _ _ _ => .ok nan, fun _ _ _ => .ok nan⟩⟩
private def wLib : Sde.LinLib := ⟨fun _ => (nan, nan), fun _ => [fin 1], fun _ _ _ => (nan, nan)⟩
private def wC : Curves := ⟨1, fun _ => fin 3, fun _ => fin 1, fun _ => fin 1, fun _ => fin 1, fun _ => fin 1000, fun _ => fin 1⟩
private def wS : State := ⟨fun _ => fin 1, fun _ => fin 1, fun _ => fin 0, fun _ => fin 2, fun _ => True⟩

private theorem w_filter (k : ℕ) : filterParams wLib wC (fun _ => fin 1) (fun _ => fin 0) (fun _ => fin 2) k := by
  refine (filter_iff wLib wC _ _ _ k 1 0 2 1 1000 1 rfl rfl rfl ?_ rfl rfl one_pos).mpr (by norm_num)
  simp [effSlope, wLib]

private theorem w_phi : calcPhi wNum (fin 1) (fin 1) (fin 1) (fin 2) (fin 1) = fin 1 := by
  have : (0 : ℝ) < 2 * 1 / 1 * Real.exp (2 * (1 + 1 - 1) / 1) := by positivity
  simp only [calcPhi, wNum, if_false, phiArg, npwhere, zero_eq, eqv_fin, one_ne_zero, fin_mul, fin_add, fin_sub,
    fin_div one_ne_zero, exp_fin, fin_lt, this, if_true]

private theorem w_pass : ioStep wNum (fin 3) (fin 1) (fin 0) (fin 2) (fin 1) (fin 1) = fin 1 := by
  have h2 : (2 : ℝ) ≠ 0 := by norm_num
  have h : (0 : ℝ) < 1 / 2 := by norm_num
  have h' : (1 : ℝ) / 2 ≠ 0 := by norm_num
  have hv : lambertwVFromI wNum.W wNum.LW wNum.ovf 0 (fin 1) (fin 1) (fin 0) (fin 2) (fin 1) = fin 3 := by
    simp only [lambertwVFromI, wNum, one_eq, zero_eq, fin_div h2, fin_lt, h, if_true, if_false, fin_add, fin_sub, fin_mul,
      fin_div h', fin_inj, neg_fin]
    norm_num
  simp only [ioStep, hv, ofNat_eq, one_eq, fin_sub, fin_mul]
  rw [fin_div (by norm_num), fin_add, fin_mul, fin_inj]
  norm_num

/-- The hypotheses of `loop_result` and `refine_step` are met: on this curve the loop returns the state it started from. -/
example : Covers wLib wC wS ∧ ∃ s', updateIvParams wNum wLib wC wS 1 (fin 1e-3) = .ok s' := by
  refine ⟨fun k _ => trivial, ?_⟩
  have hrsh : put wS.u (fun k => updateRsh wNum (wC.vmp k) (wC.imp k) (wS.iph k) (wS.io k) (wS.rsh k) (wC.nnsvth k)) wS.rsh =
      fun _ => fin 2 := by
    funext k
    have : rshStep wNum (fin 1) (fin 1) (fin 1) (fin 1) (fin 1) (fin 2) = fin 2 := by
      simp only [rshStep, w_phi, one_eq, ofNat_eq, fin_add, fin_mul, fin_div one_ne_zero, fin_sub, fin_inj]
      norm_num
    exact (if_pos trivial).trans (Function.iterate_fixed this 500)
  have hrs : put wS.u (fun k => rsFormula wNum (wC.vmp k) (wC.imp k) (wS.iph k) (wS.io k) (fin 2) (wC.nnsvth k)) wS.rs =
      fun _ => fin 0 := by
    funext k
    refine (if_pos trivial).trans ?_
    show rsFormula wNum (fin 1) (fin 1) (fin 1) (fin 1) (fin 2) (fin 1) = fin 0
    simp only [rsFormula, w_phi, fin_add, fin_sub, fin_mul, fin_div one_ne_zero, fin_inj]
    norm_num
  have hsel : ∀ u : ℕ → Prop, u 0 → sel wC.n u ≠ [] := by
    intro u hu h
    have : (0 : ℕ) ∈ sel wC.n u := by
      rw [sel, List.mem_filter]
      exact ⟨by simp [wC], by simpa using hu⟩
    rw [h] at this
    simp at this
  have hio : updateIo wNum wC wS.iph wS.io (fun _ => fin 0) (fun _ => fin 2)
      (sel wC.n (filterParams wLib wC wS.io (fun _ => fin 0) (fun _ => fin 2))) = .ok (fun _ => fin 1) := by
    refine (if_neg (hsel _ (w_filter 0))).trans ?_
    congr 1
    obtain ⟨m, -, -, hv, -⟩ := Pvlib.Props.SdmSteps.loop_passes wNum wC wS.iph (fun _ => fin 0) (fun _ => fin 2)
      (sel wC.n (filterParams wLib wC wS.io (fun _ => fin 0) (fun _ => fin 2))) 9 wS.io
    funext k
    rw [hv k]
    exact Function.iterate_fixed w_pass m
  have hput : put (filterParams wLib wC wS.io (fun _ => fin 0) (fun _ => fin 2)) (fun _ => fin 1) wS.io = fun _ => fin 1 := by
    funext k
    exact if_pos (w_filter k)
  have hstep : refineStep wNum wLib wC wS = .ok ⟨fun k => iphFormula (wC.isc k) (fin 1) (fin 0) (fin 2) (wC.nnsvth k), fun _ => fin 1,
      fun _ => fin 0, fun _ => fin 2, filterParams wLib wC (fun _ => fin 1) (fun _ => fin 0) (fun _ => fin 2)⟩ := by
    simp only [refineStep, hrsh, hrs, hio, hput]
  refine ⟨⟨fun k => iphFormula (wC.isc k) (fin 1) (fin 0) (fin 2) (wC.nnsvth k), fun _ => fin 1,
      fun _ => fin 0, fun _ => fin 2, filterParams wLib wC (fun _ => fin 1) (fun _ => fin 0) (fun _ => fin 2)⟩, ?_⟩
  simp only [updateIvParams, updateLoop, hstep]
  exact (if_neg (hsel _ (w_filter 0))).trans (ite_self _)

end Pvlib.Props.SdmLoop
