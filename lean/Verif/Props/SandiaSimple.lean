import Verif.Model.Sde
import Verif.Props.LstSq
import Verif.Props.Astm
import Mathlib.Analysis.Complex.ExponentialBounds

/-! # C144: the simple Sandia fit of the single diode equation

`numpy`'s straight-line fit and linear least squares are third-party: they enter as a `LinLib`, with what they compute in
exact arithmetic stated as `GoodLine`, `GoodLstsq` and `GoodEig` (`good_lib_exists`: such a library exists). -/

noncomputable section
open scoped Classical
open Real
namespace Pvlib.Props.SandiaSimple
open Fl Pvlib.Sde Pvlib.IvTools

/-! ## Specification of the third-party functions -/

/-- Sum of squared residuals of the line `y = s x + b` on points. -/
def lineSsr (pts : List (ℝ × ℝ)) (s b : ℝ) : ℝ := (pts.map fun p => (s * p.1 + b - p.2) ^ 2).sum

/-- `y = s x + b` is a least-squares line of the points. -/
def IsLine (pts : List (ℝ × ℝ)) (s b : ℝ) : Prop := ∀ s' b', lineSsr pts s b ≤ lineSsr pts s' b'

/-- The real points as the model's points. -/
def lift (pts : List (ℝ × ℝ)) : List (Fl × Fl) := pts.map fun p => (fin p.1, fin p.2)

/-- `np.polyfit(…, deg=1)` of a non-empty list of points is a least-squares line. -/
def GoodLine (lib : LinLib) : Prop := ∀ pts : List (ℝ × ℝ), pts ≠ [] →
  ∃ s b : ℝ, lib.polyfit1 (lift pts) = (fin s, fin b) ∧ IsLine pts s b

/-- Sum of squared residuals of linear equations `row · x = rhs`. -/
def linSsr (eqs : List (List ℝ × ℝ)) (x : List ℝ) : ℝ :=
  (eqs.map fun e => ((List.zipWith (· * ·) e.1 x).sum - e.2) ^ 2).sum

/-- Real equations as the model's equations. -/
def liftEqs (eqs : List (List ℝ × ℝ)) : List (List Fl × Fl) := eqs.map fun e => (e.1.map fin, fin e.2)

/-- `np.linalg.lstsq` of a matrix with at least one row and `k` columns is a least-squares solution. -/
def GoodLstsq (lib : LinLib) : Prop := ∀ (k : ℕ) (eqs : List (List ℝ × ℝ)), eqs ≠ [] →
  (∀ e ∈ eqs, e.1.length = k) →
  ∃ x : List ℝ, x.length = k ∧ lib.lstsq (liftEqs eqs) = x.map fin ∧
    ∀ y : List ℝ, y.length = k → linSsr eqs x ≤ linSsr eqs y

/-- `np.linalg.eig` gives unit eigenvectors (that it is the eigenvector of the larger eigenvalue is never needed). -/
def GoodEig (lib : LinLib) : Prop := ∀ c d e : ℝ, ∃ x y : ℝ, lib.topEig (fin c) (fin d) (fin e) = (fin x, fin y) ∧
  x ^ 2 + y ^ 2 = 1

/-- What is assumed of the third-party library. -/
structure Good (lib : LinLib) : Prop where
  line : GoodLine lib
  lstsq : GoodLstsq lib
  eig : GoodEig lib

private theorem zip_dot (row x : List ℝ) (k : ℕ) (hr : row.length = k) (hx : x.length = k) :
    (List.zipWith (· * ·) row x).sum = ∑ j : Fin k, row.getD j 0 * x.getD j 0 := by
  have h : ∀ (k : ℕ) (row x : List ℝ), row.length = k → x.length = k →
      (List.zipWith (· * ·) row x).sum = ∑ j ∈ Finset.range k, row.getD j 0 * x.getD j 0 := by
    intro k
    induction k with
    | zero => intro row x hr hx; simp [List.eq_nil_of_length_eq_zero hr]
    | succ k ih =>
      intro row x hr hx
      cases row with
      | nil => simp at hr
      | cons a row =>
        cases x with
        | nil => simp at hx
        | cons c x =>
          rw [Finset.sum_range_succ']
          simp only [List.zipWith_cons_cons, List.sum_cons, List.getD_cons_zero, List.getD_cons_succ]
          rw [ih row x (by simpa using hr) (by simpa using hx), add_comm]
  rw [h k row x hr hx, Finset.sum_range]

private theorem lstsq_exists (k : ℕ) (eqs : List (List ℝ × ℝ)) (hr : ∀ e ∈ eqs, e.1.length = k) :
    ∃ x : List ℝ, x.length = k ∧ ∀ y : List ℝ, y.length = k → linSsr eqs x ≤ linSsr eqs y := by
  let f : (Fin k → ℝ) →ₗ[ℝ] (Fin eqs.length → ℝ) :=
    { toFun := fun x j => ∑ t : Fin k, (eqs.get j).1.getD t 0 * x t
      map_add' := by intro a b; funext j; simp [mul_add, Finset.sum_add_distrib]
      map_smul' := by intro c a; funext j; simp [Finset.mul_sum, mul_left_comm] }
  obtain ⟨x, hx⟩ := LstSq.exists_minimiser eqs.length f (fun j => (eqs.get j).2)
  have hs : ∀ y : List ℝ, y.length = k → linSsr eqs y =
      ∑ j : Fin eqs.length, (f (fun t => y.getD t 0) j - (eqs.get j).2) ^ 2 := by
    intro y hy
    unfold linSsr
    rw [← Fin.sum_univ_fun_getElem]
    apply Finset.sum_congr rfl
    intro j _
    rw [zip_dot _ _ k (hr _ (List.getElem_mem _)) hy]
    rfl
  refine ⟨List.ofFn x, by simp, fun y hy => ?_⟩
  rw [hs _ (by simp), hs y hy]
  have e : (fun t : Fin k => (List.ofFn x).getD t 0) = x := by
    funext t; simp
  rw [e]
  exact hx _

private theorem line_exists (pts : List (ℝ × ℝ)) : ∃ s b, IsLine pts s b := by
  obtain ⟨x, hx, hm⟩ := lstsq_exists 2 (pts.map fun p => ([p.1, 1], p.2)) (by
    intro e he; obtain ⟨p, _, rfl⟩ := List.mem_map.mp he; rfl)
  have hs : ∀ s b, linSsr (pts.map fun p => ([p.1, 1], p.2)) [s, b] = lineSsr pts s b := by
    intro s b
    unfold linSsr lineSsr
    rw [List.map_map]
    congr 1
    apply List.map_congr_left
    intro p _
    simp only [Function.comp, List.zipWith_cons_cons, List.zipWith_nil_right, List.sum_cons, List.sum_nil]
    ring
  match x, hx with
  | [s, b], _ => exact ⟨s, b, fun s' b' => by have := hm [s', b'] rfl; rwa [hs, hs] at this⟩

/-- The assumptions can be met. -/
theorem good_lib_exists : ∃ lib : LinLib, Good lib := by
  choose S B hSB using line_exists
  have h2 : ∀ eqs : List (List ℝ × ℝ), ∃ x : List ℝ, ∀ k, eqs ≠ [] → (∀ e ∈ eqs, e.1.length = k) →
      x.length = k ∧ ∀ y : List ℝ, y.length = k → linSsr eqs x ≤ linSsr eqs y := by
    intro eqs
    by_cases h : eqs ≠ [] ∧ ∃ k, ∀ e ∈ eqs, e.1.length = k
    · obtain ⟨h0, k, hk⟩ := h
      obtain ⟨x, hx⟩ := lstsq_exists k eqs hk
      refine ⟨x, fun k' _ hk' => ?_⟩
      obtain ⟨e, he⟩ := List.exists_mem_of_ne_nil _ h0
      have : k' = k := by rw [← hk' e he, hk e he]
      subst this
      exact hx
    · refine ⟨[], fun k h0 hk => absurd ⟨h0, k, hk⟩ h⟩
  choose X hX using h2
  have hinj : Function.Injective lift := by
    intro a b h
    exact List.map_injective_iff.mpr (by intro p q hpq; simpa [Prod.ext_iff] using hpq) h
  have hinj2 : Function.Injective liftEqs := by
    intro a b h
    refine List.map_injective_iff.mpr ?_ h
    intro p q hpq
    have h1 := (Prod.ext_iff.mp hpq).1
    have h2 := (Prod.ext_iff.mp hpq).2
    refine Prod.ext (List.map_injective_iff.mpr (fun a b h => by simpa using h) h1) (by simpa using h2)
  refine ⟨⟨fun l => if h : ∃ pts, lift pts = l then (fin (S h.choose), fin (B h.choose)) else (nan, nan),
    fun l => if h : ∃ eqs, liftEqs eqs = l then (X h.choose).map fin else [], fun _ _ _ => (fin 1, fin 0)⟩, ?_, ?_, ?_⟩
  · intro pts _
    have h : ∃ q, lift q = lift pts := ⟨pts, rfl⟩
    have e : h.choose = pts := hinj h.choose_spec
    refine ⟨S pts, B pts, ?_, hSB pts⟩
    simp only [dif_pos h, e]
  · intro k eqs h0 hk
    have h : ∃ q, liftEqs q = liftEqs eqs := ⟨eqs, rfl⟩
    have e : h.choose = eqs := hinj2 h.choose_spec
    refine ⟨X eqs, (hX eqs k h0 hk).1, ?_, (hX eqs k h0 hk).2⟩
    simp only [dif_pos h, e]
  · intro c d e
    exact ⟨1, 0, rfl, by norm_num⟩

/-! ## Exact solutions of solvable systems -/

theorem sum_sq_zero (l : List ℝ) (h : (l.map (· ^ 2)).sum ≤ 0) : ∀ a ∈ l, a = 0 := by
  induction l with
  | nil => simp
  | cons a l ih =>
    simp only [List.map_cons, List.sum_cons] at h
    have hl : 0 ≤ (l.map (· ^ 2)).sum := by
      apply List.sum_nonneg
      intro x hx
      obtain ⟨y, _, rfl⟩ := List.mem_map.mp hx
      positivity
    have ha : a ^ 2 = 0 := le_antisymm (by linarith) (sq_nonneg a)
    intro b hb
    rcases List.mem_cons.mp hb with rfl | hb
    · exact pow_eq_zero_iff (two_ne_zero) |>.mp ha
    · exact ih (by nlinarith [sq_nonneg a]) b hb

/-- A least-squares solution of solvable equations solves them. -/
theorem lstsq_solves {lib : LinLib} (hl : Good lib) (k : ℕ) (eqs : List (List ℝ × ℝ)) (h0 : eqs ≠ [])
    (hk : ∀ e ∈ eqs, e.1.length = k) (y : List ℝ) (hy : y.length = k)
    (hsol : ∀ e ∈ eqs, (List.zipWith (· * ·) e.1 y).sum = e.2) :
    ∃ x : List ℝ, x.length = k ∧ lib.lstsq (liftEqs eqs) = x.map fin ∧
      ∀ e ∈ eqs, (List.zipWith (· * ·) e.1 x).sum = e.2 := by
  obtain ⟨x, hx, he, hm⟩ := hl.lstsq k eqs h0 hk
  refine ⟨x, hx, he, fun e hem => ?_⟩
  have h1 : linSsr eqs y = 0 := by
    unfold linSsr
    apply List.sum_eq_zero
    intro z hz
    obtain ⟨e', he', rfl⟩ := List.mem_map.mp hz
    rw [hsol e' he']; ring
  have h2 := hm y hy
  rw [h1] at h2
  have := sum_sq_zero (eqs.map fun e => (List.zipWith (· * ·) e.1 x).sum - e.2)
    (by rw [List.map_map]; exact h2) _ (List.mem_map.mpr ⟨e, hem, rfl⟩)
  linarith

/-! ## The straight-line part -/

/-- The first `m` points of the curve. -/
def firstPts (v i : ℕ → ℝ) (m : ℕ) : List (ℝ × ℝ) := (List.range m).map fun k => (v k, i k)

/-- The model's series from real data. -/
abbrev ser (f : ℕ → ℝ) : Series := fun k => fin (f k)

private theorem prefix_lift (v i : ℕ → ℝ) (m : ℕ) : prefixPts (ser v) (ser i) m = lift (firstPts v i m) := by
  simp [prefixPts, lift, firstPts]

private theorem line_at {lib : LinLib} (hl : Good lib) (v i : ℕ → ℝ) {m : ℕ} (hm : 0 < m) :
    ∃ s b, lib.polyfit1 (prefixPts (ser v) (ser i) m) = (fin s, fin b) ∧ IsLine (firstPts v i m) s b := by
  rw [prefix_lift]
  apply hl.line
  simp [firstPts]; omega

private theorem loop_ok {lib : LinLib} (hl : Good lib) (v i : ℕ → ℝ) (len : ℕ) : ∀ (m0 : ℕ), 0 < m0 → ∀ r : Fl × Fl,
    beta01Loop lib (ser v) (ser i) (List.range' m0 len) = .ok r →
    ((∃ m s b, m0 ≤ m ∧ m < m0 + len ∧ lib.polyfit1 (prefixPts (ser v) (ser i) m) = (fin s, fin b) ∧
        IsLine (firstPts v i m) s b ∧ s < 0 ∧ r = (fin b, fin (-s)) ∧
        ∀ m', m0 ≤ m' → m' < m → ¬ (lib.polyfit1 (prefixPts (ser v) (ser i) m')).1 < 0) ∨
      (r = (nan, nan) ∧ ∀ m', m0 ≤ m' → m' < m0 + len → ¬ (lib.polyfit1 (prefixPts (ser v) (ser i) m')).1 < 0)) := by
  induction len with
  | zero =>
    intro m0 h0 r h
    simp only [List.range'_zero, beta01Loop, Except.ok.injEq] at h
    right
    exact ⟨h.symm, fun m' h1 h2 => by omega⟩
  | succ len ih =>
    intro m0 h0 r h
    rw [List.range'_succ] at h
    obtain ⟨s, b, e1, e2⟩ := line_at hl v i h0
    simp only [beta01Loop, if_neg (Nat.ne_of_gt h0), e1] at h
    by_cases hs : (fin s) < 0
    · rw [if_pos hs] at h
      left
      refine ⟨m0, s, b, le_refl _, by omega, e1, e2, by simpa using hs, ?_, fun m' h1 h2 => by omega⟩
      simpa using (Except.ok.inj h).symm
    · rw [if_neg hs] at h
      rcases ih (m0 + 1) (by omega) r h with ⟨m, s', b', h1, h2, h3, h4, h5, h6, h7⟩ | ⟨h1, h2⟩
      · left
        refine ⟨m, s', b', by omega, by omega, h3, h4, h5, h6, fun m' h8 h9 => ?_⟩
        rcases Nat.eq_or_lt_of_le h8 with rfl | h10
        · rw [e1]; exact hs
        · exact h7 m' (by omega) h9
      · right
        refine ⟨h1, fun m' h8 h9 => ?_⟩
        rcases Nat.eq_or_lt_of_le h8 with rfl | h10
        · rw [e1]; exact hs
        · exact h2 m' (by omega) (by omega)

private theorem loop_total {lib : LinLib} (v i : Series) (len : ℕ) : ∀ (m0 : ℕ), 0 < m0 →
    ∃ r, beta01Loop lib v i (List.range' m0 len) = .ok r := by
  induction len with
  | zero => intro m0 _; exact ⟨_, rfl⟩
  | succ len ih =>
    intro m0 h0
    rw [List.range'_succ]
    simp only [beta01Loop, if_neg (Nat.ne_of_gt h0)]
    by_cases hs : (lib.polyfit1 (prefixPts v i m0)).1 < 0
    · rw [if_pos hs]; exact ⟨_, rfl⟩
    · rw [if_neg hs]; exact ih _ (by omega)

/-- The number of points below `vlim * v_oc`. -/
def lowCount (n : ℕ) (v : ℕ → ℝ) (lim : ℝ) : ℕ := ((List.range n).filter fun k => v k < lim).length

private theorem searchSorted_fin (n : ℕ) (v : ℕ → ℝ) (lim : ℝ) :
    searchSorted n (ser v) (fin lim) = lowCount n v lim := by
  unfold searchSorted lowCount
  congr 1

private theorem lowCount_le (n : ℕ) (v : ℕ → ℝ) (lim : ℝ) : lowCount n v lim ≤ n := by
  unfold lowCount
  exact (List.length_filter_le _ _).trans (by simp)

/-- The linear part, when it succeeds. -/
private theorem linear_ok {lib : LinLib} (hl : Good lib) (n : ℕ) (v i : ℕ → ℝ) (vlim voc : ℝ) (r : Fl × Fl)
    (h : sandiaBeta0Beta1 lib n (ser v) (ser i) (fin vlim) (fin voc) = .ok r) :
    ∃ m s b, lowCount n v (vlim * voc) ≤ m ∧ 0 < m ∧ m < n ∧ IsLine (firstPts v i m) s b ∧ s < 0 ∧
      r = (fin b, fin (-s)) ∧ ∀ m', lowCount n v (vlim * voc) ≤ m' → m' < m →
        ∃ s' b', lib.polyfit1 (lift (firstPts v i m')) = (fin s', fin b') ∧ 0 ≤ s' := by
  unfold sandiaBeta0Beta1 at h
  rw [fin_mul, searchSorted_fin] at h
  set m0 := lowCount n v (vlim * voc) with hm0
  have hle : m0 ≤ n := lowCount_le _ _ _
  by_cases h0 : m0 = 0
  · rw [h0] at h
    cases n with
    | zero => simp [beta01Loop] at h
    | succ n => simp [List.range'_succ, beta01Loop] at h
  · have h0' : 0 < m0 := by omega
    obtain ⟨r', hr'⟩ := loop_total (lib := lib) (ser v) (ser i) (n - m0) m0 h0'
    simp only [hr'] at h
    obtain ⟨m, s, b, h1, h2, h3, h4, h5, h6, h7⟩ | ⟨h1, h2⟩ := loop_ok hl v i _ m0 h0' r' hr'
    · subst h6
      rw [if_neg (by simp)] at h
      refine ⟨m, s, b, h1, by omega, by omega, h4, h5, (Except.ok.inj h).symm, fun m' h8 h9 => ?_⟩
      obtain ⟨s', b', e1, _⟩ := line_at hl v i (m := m') (by omega)
      refine ⟨s', b', by rw [← prefix_lift]; exact e1, ?_⟩
      have := h7 m' h8 h9
      rw [e1] at this
      simpa using this
    · subst h1
      simp at h

/-- **C144, linear part.**  Whatever the regression library and the data (also NaN and infinities), the linear
step raises or yields an intercept and a slope neither of which is NaN. -/
theorem linear_part_not_nan (lib : LinLib) (n : ℕ) (v i : Series) (vlim voc : Fl) (r : Fl × Fl)
    (h : sandiaBeta0Beta1 lib n v i vlim voc = .ok r) : r.1 ≠ nan ∧ r.2 ≠ nan := by
  unfold sandiaBeta0Beta1 at h
  dsimp only at h
  split at h
  · cases h
  · rename_i b0 b1 _
    split at h
    · cases h
    · rename_i hn
      rw [not_or] at hn
      obtain rfl := Except.ok.inj h
      exact ⟨fun e => hn.1 (by rw [show b0 = nan from e]; trivial), fun e => hn.2 (by rw [show b1 = nan from e]; trivial)⟩

/-- The maximum power point used: the given one, or a point of the data with the largest product. -/
def MpUsed (n : ℕ) (v i : ℕ → ℝ) (mp : Option (ℝ × ℝ)) (vm im : ℝ) : Prop :=
  match mp with
  | some p => (vm, im) = p
  | none => ∃ k < n, (∀ j < n, v j * i j ≤ v k * i k) ∧ vm = v k ∧ im = i k

/-- `fit_sandia_simple` called on real data with optional points. -/
def call (lib : LinLib) (n : ℕ) (v i : ℕ → ℝ) (voc isc : Option ℝ) (mp : Option (ℝ × ℝ)) (vlim ilim : ℝ) :
    Except PyErr Params :=
  fitSandiaSimple lib n (ser v) (ser i) (voc.map fin) (isc.map fin) (mp.map fun p => (fin p.1, fin p.2)) (fin vlim)
    (fin ilim)

private theorem call_eq (lib : LinLib) {n : ℕ} (hn : 0 < n) (v i : ℕ → ℝ) (voc isc : Option ℝ) (mp : Option (ℝ × ℝ))
    (vlim ilim : ℝ) : ∃ vm im, MpUsed n v i mp vm im ∧ call lib n v i voc isc mp vlim ilim =
      match sandiaBeta0Beta1 lib n (ser v) (ser i) (fin vlim) (fin (voc.getD (v (n - 1)))) with
      | .error e => .error e
      | .ok (beta0, beta1) =>
        match sandiaBeta3Beta4 lib n (ser v) (ser i) beta0 beta1 (fin ilim) (fin (isc.getD (i 0))) with
        | .error e => .error e
        | .ok (beta3, beta4) => sandiaSimpleParams beta0 beta1 beta3 beta4 (fin vm) (fin im)
            (fin (voc.getD (v (n - 1)))) := by
  cases mp with
  | some p =>
    refine ⟨p.1, p.2, rfl, ?_⟩
    cases voc <;> cases isc <;> rfl
  | none =>
    obtain ⟨k, hk⟩ := Astm.idxMax_exists hn (fun j => v j * i j)
    obtain ⟨h1, h2⟩ := Astm.idxMax_spec hk
    refine ⟨v k, i k, ⟨k, h1, h2, rfl, rfl⟩, ?_⟩
    have : findMp n (ser v) (ser i) = .ok (fin (v k), fin (i k)) := by
      unfold findMp
      simp only [fin_mul, hk]
    unfold call fitSandiaSimple
    simp only [Option.map_none, this]
    cases voc <;> cases isc <;> rfl

/-- **C144, errors of the linear part.**  No data point below `vlim * v_oc`: the
straight line would be fitted to no point at all and `TypeError` is raised, not the documented `RuntimeError`.  If the
least-squares slope of every admissible prefix is non-negative, `RuntimeError`. -/
theorem linear_part_errors {lib : LinLib} (hl : Good lib) {n : ℕ} (hn : 0 < n) (v i : ℕ → ℝ) (voc isc : Option ℝ)
    (mp : Option (ℝ × ℝ)) (vlim ilim : ℝ) :
    ((∀ k < n, vlim * voc.getD (v (n - 1)) ≤ v k) → call lib n v i voc isc mp vlim ilim = .error .typeError) ∧
    (0 < lowCount n v (vlim * voc.getD (v (n - 1))) →
      (∀ m s b, lowCount n v (vlim * voc.getD (v (n - 1))) ≤ m → m < n →
        lib.polyfit1 (lift (firstPts v i m)) = (fin s, fin b) → 0 ≤ s) →
      call lib n v i voc isc mp vlim ilim = .error .runtimeError) := by
  obtain ⟨vm, im, _, e⟩ := call_eq lib hn v i voc isc mp vlim ilim
  rw [e]
  clear e
  generalize voc.getD (v (n - 1)) = Voc
  constructor
  · intro hv
    have h0 : lowCount n v (vlim * Voc) = 0 := by
      unfold lowCount
      rw [List.length_eq_zero_iff, List.filter_eq_nil_iff]
      intro k hk
      simpa using hv k (List.mem_range.mp hk)
    have : sandiaBeta0Beta1 lib n (ser v) (ser i) (fin vlim) (fin Voc) = .error .typeError := by
      unfold sandiaBeta0Beta1
      rw [fin_mul, searchSorted_fin, h0]
      obtain ⟨n, rfl⟩ : ∃ m, n = m + 1 := ⟨n - 1, by omega⟩
      simp [List.range'_succ, beta01Loop]
    simp only [this]
  · intro h0 hall
    have : sandiaBeta0Beta1 lib n (ser v) (ser i) (fin vlim) (fin Voc) = .error .runtimeError := by
      unfold sandiaBeta0Beta1
      rw [fin_mul, searchSorted_fin]
      have hle : lowCount n v (vlim * Voc) ≤ n := lowCount_le _ _ _
      obtain ⟨r', hr'⟩ := loop_total (lib := lib) (ser v) (ser i) (n - lowCount n v (vlim * Voc)) _ h0
      obtain ⟨m, s, b, h1, h2, h3, h4, h5, h6, h7⟩ | ⟨h1, h2⟩ := loop_ok hl v i _ _ h0 r' hr'
      · have := hall m s b h1 (by omega) (by rw [← prefix_lift]; exact h3)
        linarith
      · subst h1
        simp only [hr']
        simp
    simp only [this]

/-! ## The parameters -/

/-- `(v, i)` satisfies the single diode equation `i = IL - I0 (exp ((v + i Rs) / a) - 1) - (v + i Rs) / Rsh`. -/
def OnCurve (IL I0 Rs Rsh a v i : ℝ) : Prop :=
  i = IL - I0 * (Real.exp ((v + i * Rs) / a) - 1) - (v + i * Rs) / Rsh

private theorem exp_ne {x : ℝ} (h : x ≠ 0) : Real.exp x - 1 ≠ 0 := by
  intro h'
  have : Real.exp x = 1 := by linarith
  rw [Real.exp_eq_one_iff] at this
  exact h this

private theorem calcI0_fin {v i iph g rs a : ℝ} (ha : a ≠ 0) (hd : v + rs * i ≠ 0) :
    calcI0 (fin v) (fin i) (fin iph) (fin g) (fin rs) (fin a) =
      fin ((iph - i - g * (v + rs * i)) / (Real.exp ((v + rs * i) / a) - 1)) := by
  unfold calcI0
  have h1 := exp_ne (div_ne_zero hd ha)
  simp only [fin_mul, fin_add, fin_sub, fin_div ha, exp_fin, one_eq, fin_div h1]

private theorem io_pick (x y : ℝ) : (if (0 : Fl) < fin x ∧ (0 : Fl) < fin y then 0.5 * (fin x + fin y)
    else if (0 : Fl) < fin x then fin x else fin y) =
    fin (if 0 < x ∧ 0 < y then (x + y) / 2 else if 0 < x then x else y) := by
  by_cases h : 0 < x ∧ 0 < y
  · rw [if_pos (by simpa using h), if_pos h, fin_add, ofScientific_eq, fin_mul, fin_inj]
    norm_num
    ring
  · rw [if_neg (by simpa using h), if_neg h]
    by_cases h2 : 0 < x
    · rw [if_pos (by simpa using h2), if_pos h2]
    · rw [if_neg (by simpa using h2), if_neg h2]

/-- The parameters returned by the last step, on real coefficients: the four coefficients are reproduced, and `io` is
positive. -/
private theorem params_ok {b0 b1 b3 b4 : ℝ} {vmp imp voc : Fl} {p : Params}
    (h : sandiaSimpleParams (fin b0) (fin b1) (fin b3) (fin b4) vmp imp voc = .ok p) :
    ∃ iph rs rsh a : ℝ, p.iph = fin iph ∧ p.rs = fin rs ∧ p.rsh = fin rsh ∧ p.nNsVth = fin a ∧ a ≠ 0 ∧ rsh ≠ 0 ∧
      1 + rs / rsh ≠ 0 ∧ 1 / a = b3 ∧ rs / a = b4 ∧ iph / (1 + rs / rsh) = b0 ∧ (1 / rsh) / (1 + rs / rsh) = b1 ∧
      0 < p.io ∧
      (∀ v i c : ℝ, vmp = fin v → imp = fin i → voc = fin c → v + i * rs ≠ 0 → c ≠ 0 →
        ∃ x y : ℝ, OnCurve iph x rs rsh a v i ∧ OnCurve iph y rs rsh a c 0 ∧
          p.io = fin (if 0 < x ∧ 0 < y then (x + y) / 2 else if 0 < x then x else y)) := by
  unfold sandiaSimpleParams at h
  by_cases h3 : b3 = 0
  · rw [if_pos (by simp [h3])] at h; exact absurd h (by simp)
  rw [if_neg (by simp [h3])] at h
  simp only [one_eq, fin_div h3, fin_mul, fin_sub] at h
  by_cases hd : 1 - b4 / b3 * b1 = 0
  · rw [if_pos (by simp [hd])] at h; exact absurd h (by simp)
  rw [if_neg (by simp [hd])] at h
  simp only [fin_div hd, fin_mul, fin_add] at h
  by_cases hg : b1 / (1 - b4 / b3 * b1) = 0
  · rw [if_pos (by simp [hg])] at h; exact absurd h (by simp)
  rw [if_neg (by simp [hg])] at h
  simp only [fin_div hg] at h
  have hb1 : b1 ≠ 0 := by rintro rfl; simp at hg
  generalize hx : calcI0 vmp imp (fin ((1 + b1 / (1 - b4 / b3 * b1) * (b4 / b3)) * b0))
    (fin (b1 / (1 - b4 / b3 * b1))) (fin (b4 / b3)) (fin (1 / b3)) = X at h
  generalize hy : calcI0 voc 0 (fin ((1 + b1 / (1 - b4 / b3 * b1) * (b4 / b3)) * b0))
    (fin (b1 / (1 - b4 / b3 * b1))) (fin (b4 / b3)) (fin (1 / b3)) = Y at h
  have hd' : b3 - b4 * b1 ≠ 0 := by
    intro h'; apply hd; field_simp; linarith
  have hk : 1 + b4 / b3 / (1 / (b1 / (1 - b4 / b3 * b1))) = 1 / (1 - b4 / b3 * b1) := by
    field_simp; ring
  by_cases he : (isnan X ∨ isnan Y) ∨ (X ≤ 0 ∧ Y ≤ 0)
  · rw [if_pos he] at h; exact absurd h (by simp)
  rw [if_neg he] at h
  have hp := (Except.ok.inj h).symm
  push Not at he
  refine ⟨_, _, _, _, by rw [hp], by rw [hp], by rw [hp], by rw [hp], one_div_ne_zero h3, one_div_ne_zero hg, ?_, ?_, ?_,
    ?_, ?_, ?_, ?_⟩
  · rw [hk]; exact one_div_ne_zero hd
  · rw [one_div_one_div]
  · field_simp
  · rw [hk]
    generalize b4 / b3 = r at hd
    generalize hq : 1 - r * b1 = q at hd
    have : 1 + b1 / q * r = 1 / q := by field_simp; linarith
    rw [this]; field_simp
  · rw [hk]
    generalize 1 - b4 / b3 * b1 = q at hd
    field_simp
  · rw [hp]
    obtain ⟨⟨n1, n2⟩, n3⟩ := he
    have : ∀ Z : Fl, ¬ isnan Z → ¬ Z ≤ 0 → 0 < Z := by
      intro Z hz hz'
      cases Z <;> simp_all
    by_cases hb : 0 < X ∧ 0 < Y
    · simp only [if_pos hb]
      obtain ⟨hb1, hb2⟩ := hb
      cases X <;> cases Y <;> simp_all [infSign] <;> (try norm_num) <;> linarith
    · simp only [if_neg hb]
      by_cases hc : 0 < X
      · simp only [if_pos hc]; exact hc
      · simp only [if_neg hc]
        by_cases hX : X ≤ 0
        · exact this Y n2 (n3 hX)
        · exact absurd (this X n1 hX) hc
  · intro v i c e1 e2 e3 hv hc
    subst e1 e2 e3
    have hv' : v + b4 / b3 * i ≠ 0 := by rw [mul_comm]; exact hv
    rw [calcI0_fin (one_div_ne_zero h3) hv'] at hx
    rw [zero_eq, calcI0_fin (one_div_ne_zero h3) (by simpa using hc)] at hy
    have hX : OnCurve ((1 + b1 / (1 - b4 / b3 * b1) * (b4 / b3)) * b0)
        (((1 + b1 / (1 - b4 / b3 * b1) * (b4 / b3)) * b0 - i - b1 / (1 - b4 / b3 * b1) * (v + b4 / b3 * i)) /
          (rexp ((v + b4 / b3 * i) / (1 / b3)) - 1)) (b4 / b3) (1 / (b1 / (1 - b4 / b3 * b1))) (1 / b3) v i := by
      unfold OnCurve
      rw [mul_comm i]
      rw [div_mul_cancel₀ _ (exp_ne (div_ne_zero hv' (one_div_ne_zero h3)))]
      generalize b1 / (1 - b4 / b3 * b1) = g
      rw [div_div_eq_mul_div, div_one]
      ring
    have hY : OnCurve ((1 + b1 / (1 - b4 / b3 * b1) * (b4 / b3)) * b0)
        (((1 + b1 / (1 - b4 / b3 * b1) * (b4 / b3)) * b0 - 0 - b1 / (1 - b4 / b3 * b1) * (c + b4 / b3 * 0)) /
          (rexp ((c + b4 / b3 * 0) / (1 / b3)) - 1)) (b4 / b3) (1 / (b1 / (1 - b4 / b3 * b1))) (1 / b3) c 0 := by
      unfold OnCurve
      rw [mul_comm 0]
      rw [div_mul_cancel₀ _ (exp_ne (div_ne_zero (by simpa using hc) (one_div_ne_zero h3)))]
      generalize b1 / (1 - b4 / b3 * b1) = g
      rw [div_div_eq_mul_div, div_one]
      ring
    refine ⟨_, _, hX, hY, ?_⟩
    rw [hp, ← hx, ← hy]
    exact io_pick _ _

private theorem zeroDiv_of_zero (b0 b1 b4 vm im voc : Fl) :
    sandiaSimpleParams b0 b1 (fin 0) b4 vm im voc = .error .zeroDivision := by
  unfold sandiaSimpleParams
  exact if_pos rfl

/-- The points the exponential part is fitted to: those whose distance below the fitted line exceeds `ilim * i_sc`. -/
def selected (n : ℕ) (v i : ℕ → ℝ) (s b lim : ℝ) : List ℕ := (List.range n).filter fun k => lim < b + s * v k - i k

/-- The linear equations `β2 + β3 v + β4 i = log (b + s v - i)` at the selected points. -/
def expEqs (n : ℕ) (v i : ℕ → ℝ) (s b lim : ℝ) : List (List ℝ × ℝ) :=
  (selected n v i s b lim).map fun k => ([1, v k, i k], Real.log (b + s * v k - i k))

private theorem expIdx_eq (n : ℕ) (v i : ℕ → ℝ) (s b il isc : ℝ) :
    expIdx n (ser v) (ser i) (fin b) (fin (-s)) (fin il) (fin isc) = selected n v i s b (il * isc) := by
  unfold expIdx selected
  apply List.filter_congr
  intro k _
  apply decide_eq_decide.mpr
  simp only [fin_mul, fin_sub, fin_lt]
  constructor <;> intro h <;> linarith

private theorem exp_part {lib : LinLib} (hl : Good lib) (n : ℕ) (v i : ℕ → ℝ) (s b il isc : ℝ) (hlim : 0 ≤ il * isc) :
    (selected n v i s b (il * isc) = [] →
      sandiaBeta3Beta4 lib n (ser v) (ser i) (fin b) (fin (-s)) (fin il) (fin isc) = .ok (fin 0, fin 0)) ∧
    (selected n v i s b (il * isc) ≠ [] → ∃ b2 b3 b4,
      sandiaBeta3Beta4 lib n (ser v) (ser i) (fin b) (fin (-s)) (fin il) (fin isc) = .ok (fin b3, fin b4) ∧
      lib.lstsq (liftEqs (expEqs n v i s b (il * isc))) = [fin b2, fin b3, fin b4] ∧
      ∀ c2 c3 c4, linSsr (expEqs n v i s b (il * isc)) [b2, b3, b4] ≤
        linSsr (expEqs n v i s b (il * isc)) [c2, c3, c4]) := by
  unfold sandiaBeta3Beta4
  rw [expIdx_eq]
  constructor
  · intro h0
    rw [h0]
    simp
  · intro h0
    have hE : expEqs n v i s b (il * isc) ≠ [] := by simpa [expEqs] using h0
    obtain ⟨x, hx, e, hm⟩ := hl.lstsq 3 (expEqs n v i s b (il * isc)) hE (by
      intro q hq; obtain ⟨k, _, rfl⟩ := List.mem_map.mp hq; rfl)
    have hlift : ((selected n v i s b (il * isc)).map fun k =>
        ([1, ser v k, ser i k], Fl.log (fin b - fin (-s) * ser v k - ser i k))) =
        liftEqs (expEqs n v i s b (il * isc)) := by
      unfold liftEqs expEqs
      rw [List.map_map]
      apply List.map_congr_left
      intro k hk
      have : il * isc < b + s * v k - i k := by simpa [selected] using (List.mem_filter.mp hk).2
      simp only [Function.comp, fin_mul, fin_sub, List.map_cons, List.map_nil, one_eq]
      rw [show b - -s * v k - i k = b + s * v k - i k by ring, log_fin (by linarith)]
    match x, hx with
    | [b2, b3, b4], _ =>
      refine ⟨b2, b3, b4, ?_, by simpa using e, fun c2 c3 c4 => hm [c2, c3, c4] rfl⟩
      simp only [if_neg h0]
      rw [hlift, e]
      simp

/-- **C144, what is returned.**  Whenever the fit returns (real data, non-negative `ilim * i_sc`):

* there is a prefix of the curve, of `m` points with at least the points below `vlim * v_oc` and not the whole curve,
  whose least-squares line `i = s v + b` slopes down; every shorter admissible prefix has a fitted line that does not;
* `(β2, β3, β4)` is a least-squares solution of `β2 + β3 v + β4 i = log (b + s v - i)` over the points lying more
  than `ilim * i_sc` below that line, of which there is at least one;
* the returned parameters are the unique ones whose single diode equation has this line as its straight part
  (`iph / (1 + rs / rsh) = b`, `(1 / rsh) / (1 + rs / rsh) = -s`) and these exponential coefficients
  (`1 / a = β3`, `rs / a = β4`);
* `io` is positive; it is the mean of the two values that put the maximum power point and the open circuit
  point on the curve when both are positive, and else the positive one. -/
theorem returned_parameters {lib : LinLib} (hl : Good lib) {n : ℕ} (hn : 0 < n) (v i : ℕ → ℝ) (voc isc : Option ℝ)
    (mp : Option (ℝ × ℝ)) (vlim ilim : ℝ) (hlim : 0 ≤ ilim * isc.getD (i 0)) (p : Params)
    (h : call lib n v i voc isc mp vlim ilim = .ok p) :
    ∃ m s b, lowCount n v (vlim * voc.getD (v (n - 1))) ≤ m ∧ 0 < m ∧ m < n ∧ IsLine (firstPts v i m) s b ∧ s < 0 ∧
      (∀ m', lowCount n v (vlim * voc.getD (v (n - 1))) ≤ m' → m' < m →
        ∃ s' b', lib.polyfit1 (lift (firstPts v i m')) = (fin s', fin b') ∧ 0 ≤ s') ∧
      selected n v i s b (ilim * isc.getD (i 0)) ≠ [] ∧
      ∃ b2 b3 b4, (∀ c2 c3 c4, linSsr (expEqs n v i s b (ilim * isc.getD (i 0))) [b2, b3, b4] ≤
          linSsr (expEqs n v i s b (ilim * isc.getD (i 0))) [c2, c3, c4]) ∧
      ∃ iph rs rsh a, p.iph = fin iph ∧ p.rs = fin rs ∧ p.rsh = fin rsh ∧ p.nNsVth = fin a ∧ a ≠ 0 ∧ rsh ≠ 0 ∧
        1 + rs / rsh ≠ 0 ∧
        1 / a = b3 ∧ rs / a = b4 ∧ iph / (1 + rs / rsh) = b ∧ (1 / rsh) / (1 + rs / rsh) = -s ∧ 0 < p.io ∧
        ∃ vm im, MpUsed n v i mp vm im ∧ (vm + im * rs ≠ 0 → voc.getD (v (n - 1)) ≠ 0 →
          ∃ x y : ℝ, OnCurve iph x rs rsh a vm im ∧ OnCurve iph y rs rsh a (voc.getD (v (n - 1))) 0 ∧
            p.io = fin (if 0 < x ∧ 0 < y then (x + y) / 2 else if 0 < x then x else y)) := by
  obtain ⟨vm, im, hmp, e⟩ := call_eq lib hn v i voc isc mp vlim ilim
  rw [e] at h
  cases h1 : sandiaBeta0Beta1 lib n (ser v) (ser i) (fin vlim) (fin (voc.getD (v (n - 1)))) with
  | error er => rw [h1] at h; exact absurd h (by simp)
  | ok r =>
    rw [h1] at h
    obtain ⟨m, s, b, a1, a2, a3, a4, a5, a6, a7⟩ := linear_ok hl n v i vlim _ r h1
    subst a6
    simp only at h
    obtain ⟨x1, x2⟩ := exp_part hl n v i s b ilim (isc.getD (i 0)) hlim
    by_cases hsel : selected n v i s b (ilim * isc.getD (i 0)) = []
    · rw [x1 hsel] at h
      simp only [zeroDiv_of_zero] at h
      exact absurd h (by simp)
    · obtain ⟨b2, b3, b4, y1, _, y2⟩ := x2 hsel
      rw [y1] at h
      simp only at h
      obtain ⟨iph, rs, rsh, a, p1, p2, p3, p4, p5, p6, p7, p8, p9, p10, p11, p12, p13⟩ := params_ok h
      exact ⟨m, s, b, a1, a2, a3, a4, a5, a7, hsel, b2, b3, b4, y2, iph, rs, rsh, a, p1, p2, p3, p4, p5, p6, p7, p8, p9,
        p10, p11, p12, vm, im, hmp, fun q1 q2 => p13 vm im _ rfl rfl rfl q1 q2⟩

/-- The line found is exact when the prefix lies on a line and has two different voltages. -/
private theorem line_exact {v i : ℕ → ℝ} {m : ℕ} {s b s' b' : ℝ} (h : IsLine (firstPts v i m) s b)
    (hp : ∀ k < m, i k = s' * v k + b') {j k : ℕ} (hj : j < m) (hk : k < m) (hjk : v j ≠ v k) : s = s' ∧ b = b' := by
  have h0 : lineSsr (firstPts v i m) s' b' = 0 := by
    unfold lineSsr firstPts
    apply List.sum_eq_zero
    intro x hx
    rw [List.map_map] at hx
    obtain ⟨t, ht, rfl⟩ := List.mem_map.mp hx
    have := hp t (List.mem_range.mp ht)
    simp only [Function.comp]
    rw [this]; ring
  have h1 := h s' b'
  rw [h0] at h1
  have h2 : ∀ t < m, s * v t + b = s' * v t + b' := by
    intro t ht
    have := sum_sq_zero ((firstPts v i m).map fun p => s * p.1 + b - p.2) (by rw [List.map_map]; exact h1)
      (s * v t + b - i t) (List.mem_map.mpr ⟨(v t, i t), List.mem_map.mpr ⟨t, List.mem_range.mpr ht, rfl⟩, rfl⟩)
    rw [← hp t ht]; linarith
  have e1 := h2 j hj
  have e2 := h2 k hk
  have hs : s = s' := by
    have : (s - s') * (v j - v k) = 0 := by linear_combination e1 - e2
    rcases mul_eq_zero.mp this with h | h
    · linarith
    · exact absurd (by linarith) hjk
  subst hs
  exact ⟨rfl, by linarith⟩

private theorem cramer {x1 x2 x3 y1 y2 y3 p q r : ℝ} (h1 : p + q * x1 + r * y1 = 0) (h2 : p + q * x2 + r * y2 = 0)
    (h3 : p + q * x3 + r * y3 = 0) (hd : (x2 - x1) * (y3 - y1) - (x3 - x1) * (y2 - y1) ≠ 0) : q = 0 ∧ r = 0 := by
  constructor
  · have : q * ((x2 - x1) * (y3 - y1) - (x3 - x1) * (y2 - y1)) = 0 := by
      linear_combination (y3 - y1) * (h2 - h1) - (y2 - y1) * (h3 - h1)
    exact (mul_eq_zero.mp this).resolve_right hd
  · have : r * ((x2 - x1) * (y3 - y1) - (x3 - x1) * (y2 - y1)) = 0 := by
      linear_combination (x2 - x1) * (h3 - h1) - (x3 - x1) * (h2 - h1)
    exact (mul_eq_zero.mp this).resolve_right hd

/-- **C144, exact recovery.**  Let a single diode equation have parameters `IL`, `I0 > 0`, `Rs`, `Rsh > 0`, `a`.  If the
data points below `vlim * v_oc` lie on the straight part of its curve, the points more than `ilim * i_sc` below that
line lie on its exponential part (`y = C exp ((v + i Rs) / a)` for the distance `y` below the line: the
approximation the method makes), three of them not on a common line, and the maximum power and open circuit points used are
on its curve, then exactly these five parameters are returned. -/
theorem exact_recovery {lib : LinLib} (hl : Good lib) {n : ℕ} (v i : ℕ → ℝ) (voc isc : Option ℝ)
    (mp : Option (ℝ × ℝ)) (vlim ilim : ℝ) (hlim : 0 ≤ ilim * isc.getD (i 0))
    (IL I0 Rs Rsh a C b s : ℝ) (hI0 : 0 < I0) (hRsh : 0 < Rsh) (ha : a ≠ 0) (hK : 0 < 1 + Rs / Rsh)
    (hb : b = IL / (1 + Rs / Rsh)) (hs : s = -((1 / Rsh) / (1 + Rs / Rsh)))
    (hm : lowCount n v (vlim * voc.getD (v (n - 1))) < n)
    (hlin : ∀ k < lowCount n v (vlim * voc.getD (v (n - 1))), i k = b + s * v k)
    (htwo : ∃ j < lowCount n v (vlim * voc.getD (v (n - 1))), ∃ k < lowCount n v (vlim * voc.getD (v (n - 1))), v j ≠ v k)
    (hC : 0 < C) (hexp : ∀ k < n, ilim * isc.getD (i 0) < b + s * v k - i k →
      b + s * v k - i k = C * Real.exp ((v k + i k * Rs) / a))
    (hthree : ∃ x ∈ selected n v i s b (ilim * isc.getD (i 0)), ∃ y ∈ selected n v i s b (ilim * isc.getD (i 0)),
      ∃ z ∈ selected n v i s b (ilim * isc.getD (i 0)), (v y - v x) * (i z - i x) - (v z - v x) * (i y - i x) ≠ 0)
    (hmp : ∀ vm im, MpUsed n v i mp vm im → OnCurve IL I0 Rs Rsh a vm im ∧ vm + im * Rs ≠ 0)
    (hoc : OnCurve IL I0 Rs Rsh a (voc.getD (v (n - 1))) 0) (hoc0 : voc.getD (v (n - 1)) ≠ 0) :
    call lib n v i voc isc mp vlim ilim = .ok ⟨fin IL, fin I0, fin Rs, fin Rsh, fin a⟩ := by
  have hn : 0 < n := by omega
  obtain ⟨vm, im, hmpu, e⟩ := call_eq lib hn v i voc isc mp vlim ilim
  obtain ⟨c1, c2⟩ := hmp vm im hmpu
  rw [e]
  clear e
  generalize voc.getD (v (n - 1)) = Voc at *
  generalize isc.getD (i 0) = Isc at *
  obtain ⟨j, hj, k, hk, hjk⟩ := htwo
  have hs0 : s < 0 := by rw [hs]; have : 0 < (1 / Rsh) / (1 + Rs / Rsh) := by positivity
                         linarith
  -- the straight line
  have e1 : sandiaBeta0Beta1 lib n (ser v) (ser i) (fin vlim) (fin Voc) = .ok (fin b, fin (-s)) := by
    unfold sandiaBeta0Beta1
    rw [fin_mul, searchSorted_fin]
    obtain ⟨q, hq⟩ : ∃ q, n - lowCount n v (vlim * Voc) = q + 1 := ⟨n - lowCount n v (vlim * Voc) - 1, by omega⟩
    simp only [hq, List.range'_succ]
    obtain ⟨s', b', f1, f2⟩ := line_at hl v i (m := lowCount n v (vlim * Voc)) (by omega)
    obtain ⟨rfl, rfl⟩ := line_exact f2 (s' := s) (b' := b) (fun t ht => by rw [hlin t ht]; ring) hj hk hjk
    simp only [beta01Loop, if_neg (show lowCount n v (vlim * Voc) ≠ 0 by omega), f1]
    rw [if_pos (show fin s' < 0 by simpa using hs0)]
    simp
  rw [e1]
  simp only
  -- the exponential part
  obtain ⟨x, hx, y, hy, z, hz, hdet⟩ := hthree
  have hne : selected n v i s b (ilim * Isc) ≠ [] := List.ne_nil_of_mem hx
  obtain ⟨b2, b3, b4, y1, y2, _⟩ := (exp_part hl n v i s b ilim Isc hlim).2 hne
  rw [y1]
  simp only
  have hE : expEqs n v i s b (ilim * Isc) ≠ [] := by simpa [expEqs] using hne
  obtain ⟨w, hw, g1, g2⟩ := lstsq_solves hl 3 (expEqs n v i s b (ilim * Isc)) hE (by
      intro q hq; obtain ⟨k, _, rfl⟩ := List.mem_map.mp hq; rfl) [Real.log C, 1 / a, Rs / a] rfl (by
      intro q hq
      obtain ⟨k, hk, rfl⟩ := List.mem_map.mp hq
      have hk1 := List.mem_range.mp (List.mem_filter.mp hk).1
      have hk2 : ilim * Isc < b + s * v k - i k := by simpa using (List.mem_filter.mp hk).2
      simp only [List.zipWith_cons_cons, List.zipWith_nil_right, List.sum_cons, List.sum_nil]
      rw [hexp k hk1 hk2, Real.log_mul hC.ne' (Real.exp_ne_zero _), Real.log_exp]
      field_simp
      ring)
  have hw' : w = [b2, b3, b4] := by
    rw [y2] at g1
    exact List.map_injective_iff.mpr (fun a b h => by simpa using h) g1.symm
  subst hw'
  have hsolve : ∀ k ∈ selected n v i s b (ilim * Isc),
      (b2 - Real.log C) + (b3 - 1 / a) * v k + (b4 - Rs / a) * i k = 0 := by
    intro k hk
    have h1 := g2 _ (List.mem_map.mpr ⟨k, hk, rfl⟩)
    have hk1 := List.mem_range.mp (List.mem_filter.mp hk).1
    have hk2 : ilim * Isc < b + s * v k - i k := by simpa using (List.mem_filter.mp hk).2
    simp only [List.zipWith_cons_cons, List.zipWith_nil_right, List.sum_cons, List.sum_nil] at h1
    rw [hexp k hk1 hk2, Real.log_mul hC.ne' (Real.exp_ne_zero _), Real.log_exp] at h1
    have : (v k + i k * Rs) / a = 1 / a * v k + Rs / a * i k := by ring
    rw [this] at h1
    linarith
  obtain ⟨q1, q2⟩ := cramer (hsolve x hx) (hsolve y hy) (hsolve z hz) hdet
  have hb3 : b3 = 1 / a := by linarith
  have hb4 : b4 = Rs / a := by linarith
  -- the parameters
  have hden : Rsh + Rs ≠ 0 := by
    intro h; apply hK.ne'; field_simp; linarith
  have hrs : b4 / b3 = Rs := by rw [hb3, hb4]; field_simp
  have hq : 1 - Rs * -s = 1 / (1 + Rs / Rsh) := by rw [hs]; field_simp; ring
  have hg : -s / (1 / (1 + Rs / Rsh)) = 1 / Rsh := by
    rw [hs]
    have := hK.ne'
    generalize 1 + Rs / Rsh = K at *
    field_simp
  have hiph : (1 + 1 / Rsh * Rs) * b = IL := by
    rw [hb]
    have := hK.ne'
    rw [show 1 + 1 / Rsh * Rs = 1 + Rs / Rsh by ring]
    field_simp
  have h3 : b3 ≠ 0 := by rw [hb3]; exact one_div_ne_zero ha
  have hio : ∀ V I : ℝ, OnCurve IL I0 Rs Rsh a V I → V + I * Rs ≠ 0 →
      calcI0 (fin V) (fin I) (fin IL) (fin (1 / Rsh)) (fin Rs) (fin a) = fin I0 := by
    intro V I h1 h2
    rw [mul_comm] at h2
    rw [calcI0_fin ha h2, fin_inj, div_eq_iff (exp_ne (div_ne_zero h2 ha))]
    unfold OnCurve at h1
    rw [mul_comm I Rs] at h1
    have : 1 / Rsh * (V + Rs * I) = (V + Rs * I) / Rsh := by ring
    rw [this]
    linarith
  have e3 := hio vm im c1 c2
  have e4 := hio Voc 0 hoc (by simpa using hoc0)
  unfold sandiaSimpleParams
  rw [if_neg (by simp [h3])]
  simp only [one_eq, fin_div h3, fin_mul, fin_sub, hrs, hq]
  rw [if_neg (by simp [hK.ne'])]
  rw [fin_div (one_div_ne_zero hK.ne'), hg]
  rw [if_neg (by simp [hRsh.ne'])]
  have hA : fin (1 / b3) = fin a := by rw [hb3, one_div_one_div]
  simp only [fin_mul, fin_add, hiph, hA, e3, e4, zero_eq]
  rw [if_neg (by simp [hI0])]
  rw [fin_div (one_div_ne_zero hRsh.ne'), one_div_one_div, if_pos (by simp [hI0])]
  congr 2
  simp only [ofScientific_eq, fin_mul, fin_inj]
  norm_num
  ring

/-- **C144, no exponential part.**  If the linear part succeeds but no point lies more than `ilim * i_sc` below
its line, the division by the zero coefficient raises `ZeroDivisionError`. -/
theorem no_exponential_part {lib : LinLib} (hl : Good lib) {n : ℕ} (hn : 0 < n) (v i : ℕ → ℝ) (voc isc : Option ℝ)
    (mp : Option (ℝ × ℝ)) (vlim ilim : ℝ) (hlim : 0 ≤ ilim * isc.getD (i 0)) (s b : ℝ) (hs : s < 0)
    (hm : lowCount n v (vlim * voc.getD (v (n - 1))) < n)
    (hlin : ∀ k < n, i k = b + s * v k)
    (htwo : ∃ j < lowCount n v (vlim * voc.getD (v (n - 1))), ∃ k < lowCount n v (vlim * voc.getD (v (n - 1))), v j ≠ v k) :
    call lib n v i voc isc mp vlim ilim = .error .zeroDivision := by
  obtain ⟨vm, im, hmpu, e⟩ := call_eq lib hn v i voc isc mp vlim ilim
  rw [e]
  clear e
  generalize voc.getD (v (n - 1)) = Voc at *
  generalize isc.getD (i 0) = Isc at *
  obtain ⟨j, hj, k, hk, hjk⟩ := htwo
  have e1 : sandiaBeta0Beta1 lib n (ser v) (ser i) (fin vlim) (fin Voc) = .ok (fin b, fin (-s)) := by
    unfold sandiaBeta0Beta1
    rw [fin_mul, searchSorted_fin]
    obtain ⟨q, hq⟩ : ∃ q, n - lowCount n v (vlim * Voc) = q + 1 := ⟨n - lowCount n v (vlim * Voc) - 1, by omega⟩
    simp only [hq, List.range'_succ]
    obtain ⟨s', b', f1, f2⟩ := line_at hl v i (m := lowCount n v (vlim * Voc)) (by omega)
    obtain ⟨rfl, rfl⟩ := line_exact f2 (s' := s) (b' := b) (fun t ht => by rw [hlin t (by omega)]; ring) hj hk hjk
    simp only [beta01Loop, if_neg (show lowCount n v (vlim * Voc) ≠ 0 by omega), f1]
    rw [if_pos (show fin s' < 0 by simpa using hs)]
    simp
  rw [e1]
  simp only
  have hsel : selected n v i s b (ilim * Isc) = [] := by
    unfold selected
    rw [List.filter_eq_nil_iff]
    intro k hk
    have := hlin k (List.mem_range.mp hk)
    simp only [decide_eq_true_eq, not_lt]
    linarith
  rw [(exp_part hl n v i s b ilim Isc hlim).1 hsel]
  simp only [zeroDiv_of_zero]

/-! ## A concrete curve -/

private def ev (k : ℕ) : ℝ := if k = 0 then 0 else if k = 1 then 1 / 4 else (k : ℝ) - 1
private def ei (k : ℕ) : ℝ := Real.exp 1 - ev k - (if k < 2 then 0 else Real.exp (ev k))

private theorem low_ex : lowCount 5 ev (1 / 2 * 1) = 2 := by
  unfold lowCount
  have : (List.range 5) = [0, 1, 2, 3, 4] := rfl
  rw [this]
  norm_num [ev, List.filter_cons]

/-- A five-point curve with `IL = e`, `I0 = 1`, `Rs = 0`, `Rsh = 1`, `a = 1` and `v_oc = 1`: the hypotheses
of `exact_recovery` hold, and the fit returns these parameters. -/
example {lib : LinLib} (hl : Good lib) :
    call lib 5 ev ei (some 1) none (some (1 / 2, Real.exp 1 - 1 * (Real.exp (1 / 2) - 1) - 1 / 2)) (1 / 2) (1 / 50) =
      .ok ⟨fin (Real.exp 1), fin 1, fin 0, fin 1, fin 1⟩ := by
  have he : Real.exp 1 < 3 := by have := Real.exp_one_lt_d9; linarith
  have he' : 2 < Real.exp 1 := by have := Real.exp_one_gt_d9; linarith
  have h0 : ei 0 = Real.exp 1 := by simp [ei, ev]
  have hpos : ∀ k, 2 ≤ k → 1 / 50 * Real.exp 1 < Real.exp (ev k) := by
    intro k hk
    have h1 : ev k = (k : ℝ) - 1 := by unfold ev; rw [if_neg (by omega), if_neg (by omega)]
    have h2 : (1 : ℝ) ≤ ev k := by
      rw [h1]
      have : (2 : ℝ) ≤ k := by exact_mod_cast hk
      linarith
    have := Real.exp_le_exp.mpr h2
    linarith
  have hselk : ∀ k, 2 ≤ k → k < 5 → k ∈ selected 5 ev ei (-1) (Real.exp 1) (1 / 50 * Option.getD none (ei 0)) := by
    intro k hk hk5
    unfold selected
    rw [List.mem_filter]
    refine ⟨List.mem_range.mpr hk5, ?_⟩
    have := hpos k hk
    simp only [Option.getD_none, h0, decide_eq_true_eq]
    unfold ei
    rw [if_neg (by omega)]
    linarith
  refine exact_recovery hl ev ei (some 1) none _ (1 / 2) (1 / 50) (by simp [h0, (Real.exp_pos 1).le]) (Real.exp 1) 1 0 1 1 1
    (Real.exp 1) (-1) one_pos one_pos one_ne_zero (by norm_num) (by norm_num) (by norm_num) ?_ ?_ ?_ one_pos ?_ ?_ ?_ ?_ ?_
  · simp only [Option.getD_some]; rw [low_ex]; norm_num
  · simp only [Option.getD_some]; rw [low_ex]
    intro k hk
    unfold ei
    rw [if_pos hk]; ring
  · simp only [Option.getD_some]; rw [low_ex]
    exact ⟨0, by norm_num, 1, by norm_num, by norm_num [ev]⟩
  · intro k hk h
    by_cases h2 : k < 2
    · exfalso
      simp only [Option.getD_none, h0] at h
      unfold ei at h
      rw [if_pos h2] at h
      linarith
    · unfold ei
      rw [if_neg h2]; simp; ring
  · refine ⟨2, hselk 2 (by norm_num) (by norm_num), 3, hselk 3 (by norm_num) (by norm_num), 4,
      hselk 4 (by norm_num) (by norm_num), ?_⟩
    have h2 : ev 2 = 1 := by norm_num [ev]
    have h3 : ev 3 = 2 := by norm_num [ev]
    have h4 : ev 4 = 3 := by norm_num [ev]
    have e2 : Real.exp 2 = Real.exp 1 ^ 2 := by rw [← Real.exp_nat_mul]; norm_num
    have e3 : Real.exp 3 = Real.exp 1 ^ 3 := by rw [← Real.exp_nat_mul]; norm_num
    unfold ei
    rw [h2, h3, h4]
    norm_num
    rw [e2, e3]
    generalize Real.exp 1 = e at *
    have : 0 < e * (e - 1) ^ 2 := by have : 0 < e - 1 := by linarith
                                     positivity
    nlinarith
  · rintro vm im h
    have h' : (vm, im) = (1 / 2, Real.exp 1 - 1 * (Real.exp (1 / 2) - 1) - 1 / 2) := h
    obtain ⟨rfl, rfl⟩ := Prod.ext_iff.mp h'
    constructor
    · unfold OnCurve; norm_num
    · norm_num
  · unfold OnCurve; norm_num
  · norm_num

end Pvlib.Props.SandiaSimple
