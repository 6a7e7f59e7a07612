import Verif.Props.Snow
import Verif.Props.Soiling

/-! # Property C198: long series can be processed in pieces

Snow coverage and soiling carry state from one time to the next.  The second piece of a series, started at position `n` with the
state reached there, gives the same values as the whole series. -/

noncomputable section
open scoped Classical
namespace Pvlib.Props.Continuation
open Fl Pvlib.Tools Pvlib.Snow Pvlib.Soiling Series Pvlib.Spec Pvlib.Props.Snow Pvlib.Props.Soiling

/-- The piece of a series from position `n` on. -/
def from_ {α : Type} (n : ℕ) (x : ℕ → α) : ℕ → α := fun i => x (n + i)

/-! ## Snow -/

private theorem later_snow (t : ℕ → ℝ) (freq freq' : Option ℝ) (snowfall : Series) (depth : Option Series) (thr thrDepth : Fl) (n i : ℕ) :
    NewSnow (from_ n t) freq' (from_ n snowfall) (depth.map (from_ n)) thr thrDepth (i + 1) ↔
      NewSnow t freq snowfall depth thr thrDepth (n + (i + 1)) := by
  have e : n + (i + 1) = (n + i) + 1 := by omega
  unfold NewSnow from_
  rw [e]
  cases depth <;> simp [e]

/-- **C198**, snow: started at `n` with the coverage reached there, `coverage_nrel` gives the same values as on the whole series, for an
index of constant step (or one whose frequency cannot be inferred from the piece). -/
theorem snow_continues (t : ℕ → ℝ) (ht : Monotone t) (freq freq' : Option ℝ) (snowfall poa temp tilt : Series) (depth : Option Series)
    (c0 c k : ℝ) (hk : 0 ≤ k) (h0 : c0 ≤ 1) (thr thrDepth mcoef : Fl) (hthr : ¬ thr < fin 0)
    (htilt : ∀ j, NanOr (tilt j) (fun b => 0 ≤ b ∧ b ≤ 180)) (n : ℕ) (hn : 0 < n) (hf : freq' = none ∨ freq' = some (t n - t (n - 1)))
    (hc : coverageNrel t freq snowfall poa temp tilt depth (fin c0) thr thrDepth mcoef (fin k) n = fin c) (i : ℕ) :
    coverageNrel (from_ n t) freq' (from_ n snowfall) (from_ n poa) (from_ n temp) (from_ n tilt) (depth.map (from_ n)) (fin c) thr
        thrDepth mcoef (fin k) i =
      coverageNrel t freq snowfall poa temp tilt depth (fin c0) thr thrDepth mcoef (fin k) (n + i) := by
  have ht' : Monotone (from_ n t) := fun a b h => ht (by omega)
  have r := coverage_recurrence t ht freq snowfall poa temp tilt depth c0 k hk thr thrDepth mcoef htilt
  have r' := coverage_recurrence (from_ n t) ht' freq' (from_ n snowfall) (from_ n poa) (from_ n temp) (from_ n tilt) (depth.map (from_ n)) c k hk
    thr thrDepth mcoef (fun j => htilt (n + j))
  have nn := slides_nonneg t ht (NewSnow t freq snowfall depth thr thrDepth) poa temp tilt depth thrDepth mcoef k hk htilt
  simp only at r r'
  rw [r] at hc
  rw [r, r']
  set snow := NewSnow t freq snowfall depth thr thrDepth with hsnow
  set snow' := NewSnow (from_ n t) freq' (from_ n snowfall) (depth.map (from_ n)) thr thrDepth with hsnow'
  set sl := slides t snow poa temp tilt depth thrDepth mcoef k with hsl
  set sl' := slides (from_ n t) snow' (from_ n poa) (from_ n temp) (from_ n tilt) (depth.map (from_ n)) thrDepth mcoef k with hsl'
  have rg := cover_range snow sl c0 h0 nn
  have es : ∀ j, snow' (j + 1) ↔ snow (n + (j + 1)) := fun j => later_snow t freq freq' snowfall depth thr thrDepth n j
  have el : ∀ j, sl' (j + 1) = sl (n + (j + 1)) := by
    intro j
    simp only [hsl, hsl', slides, es j, from_]
    have e : n + (j + 1) - 1 = n + j := by omega
    cases depth <;> simp [from_, e]
  obtain ⟨m, rfl⟩ : ∃ m, n = m + 1 := ⟨n - 1, by omega⟩
  have hsn : sl (m + 1) ≠ none := by
    intro h
    rw [if_pos h] at hc
    cases hc
  rw [if_neg hsn, fin_inj] at hc
  -- the bare-ground condition at the start of the piece
  have hbare : sl' 0 ≠ none ∧ (snow' 0 → snow (m + 1)) ∧ (¬ snow' 0 → max 0 (c - (sl' 0).getD 0) = c) := by
    refine ⟨?_, ?_, ?_⟩
    · simp only [hsl', slides]; split_ifs with g1 g2
      · simp
      · simp
      · exact absurd (Or.inl trivial) g2
    · intro h
      rcases hf with hf | hf
      · rw [hsnow', hf] at h
        exact absurd h.1 hthr
      · rw [hsnow', hf] at h
        refine ⟨?_, ?_⟩
        · have := h.1
          simpa [from_] using this
        · have := h.2
          cases depth <;> simpa [from_] using this
    · intro _
      by_cases hb : (match depth with | none => False | some d => d (m + 1) < thrDepth)
      · have e1 : sl (m + 1) = some 1 := by
          simp only [hsl, slides]; rw [if_pos]
          cases depth with
          | none => exact hb
          | some d => exact hb
        have e2 : sl' 0 = some 1 := by
          simp only [hsl', slides]; rw [if_pos]
          cases depth with
          | none => exact hb
          | some d => exact hb
        have hns : ¬ snow (m + 1) := by
          intro h
          have h2 := h.2
          cases depth with
          | none => exact hb
          | some d =>
            revert h2 hb
            simp only
            cases thrDepth <;> cases d (m + 1) <;> simp
        have : c = 0 := by
          rw [← hc, cover, if_neg hns, e1]
          exact max_eq_left (by simpa using (rg m).2)
        rw [this, e2]
        norm_num
      · have e2 : sl' 0 = some 0 := by
          simp only [hsl', slides]
          rw [if_neg, if_pos (Or.inl trivial)]
          cases depth with
          | none => exact hb
          | some d => exact hb
        rw [e2]
        simpa [← hc] using (rg (m + 1)).1
  have key : ∀ j, cover snow' sl' c j = cover snow sl c0 (m + 1 + j) := by
    intro j
    induction j with
    | zero =>
      rw [cover]
      by_cases h : snow' 0
      · rw [if_pos h, Nat.add_zero, cover, if_pos (hbare.2.1 h)]
      · rw [if_neg h, hbare.2.2 h, ← hc]
    | succ j ih =>
      rw [show m + 1 + (j + 1) = (m + 1 + j) + 1 by omega, cover, cover, ih]
      have e1 := es j; have e2 := el j
      rw [show m + 1 + (j + 1) = (m + 1 + j) + 1 by omega] at e1 e2
      rw [e2]
      by_cases h : snow (m + 1 + j + 1)
      · rw [if_pos h, if_pos (e1.mpr h)]
      · rw [if_neg h, if_neg (mt e1.mp h)]
  rw [key]
  cases i with
  | zero => rw [if_neg hbare.1, if_neg hsn]
  | succ i => rw [el]

/-- Hourly data, snow in hour 2, sliding afterwards; restarted at hour 2. -/
example := snow_continues (fun i => (i : ℝ)) Nat.mono_cast none none (fun i => if i = 2 then fin 2 else fin 0) (fun _ => fin 800) (fun _ => fin 5)
  (fun _ => fin 30) none 0 1 0.197 (by norm_num) (by norm_num) (fin 1) (fin 1) (fin (-80)) (by rw [fin_lt]; norm_num) (fun _ => by norm_num)
  2 (by norm_num) (Or.inl rfl)
  (by
    refine coverage_new_snow _ Nat.mono_cast _ _ _ _ _ _ _ _ (by norm_num) _ _ _ (fun _ => by norm_num) 2 ⟨?_, trivial⟩
    simp only [if_true]
    rw [fin_div (by norm_num), fin_lt]; norm_num)

/-! ## Kimber -/

private theorem rain_from (t : ℕ → ℝ) (ht : Monotone t) (period : ℝ) (rain : ℕ → ℝ) (n i : ℕ)
    (dry : ∀ j < n, t n - period < t j → rain j = 0) :
    rainIn (from_ n t) period (from_ n rain) i = rainIn t period rain (n + i) := by
  unfold rainIn
  rw [Finset.sum_filter, Finset.sum_filter, show n + i + 1 = n + (i + 1) by omega,
    Finset.sum_range_add (fun a => if t (n + i) - period < t a then rain a else 0) n (i + 1)]
  have : ∑ x ∈ Finset.range n, (if t (n + i) - period < t x then rain x else 0) = 0 := by
    apply Finset.sum_eq_zero
    intro j hj
    split_ifs with h
    · exact dry j (Finset.mem_range.mp hj) (lt_of_le_of_lt (by linarith [ht (show n ≤ n + i by omega)]) h)
    · rfl
  rw [this, zero_add]
  rfl

private theorem soil_le (cl : ℕ → Prop) (step cap init : ℝ) (hcap : 0 ≤ cap) (i : ℕ) : soil cl step cap init i ≤ cap := by
  cases i <;> simp only [soil] <;> split_ifs <;> first | exact hcap | exact min_le_left _ _

/-- **C198**, Kimber: started at `n` with the soiling reached there, `kimber` gives the same values as on the whole series, if the
step is that of the whole series and neither the accumulation period nor the grace period reaches back over `n` to a rain. -/
theorem kimber_continues (t : ℕ → ℝ) (ht : Monotone t) (rain : ℕ → ℝ) (thr rate grace cap init c accum : ℝ) (hr : 0 ≤ rate)
    (hcap : 0 ≤ cap) (hA : 0 < accum) (wash : ℕ → Prop) (n : ℕ) (hstep : t (n + 1) - t n = t 1 - t 0)
    (dry : ∀ j < n, t n - accum * 3600 < t j → rain j = 0)
    (damp : ∀ j < n, t n - grace * 86400 < t j → rainIn t (accum * 3600) rain j ≤ thr)
    (hc : kimber t (fun j => fin (rain j)) (fin thr) (fin rate) grace (fin cap) wash (fin init) accum n = fin c) (i : ℕ) :
    kimber (from_ n t) (fun j => fin (from_ n rain j)) (fin thr) (fin rate) grace (fin cap) (from_ n wash) (fin c) accum i =
      kimber t (fun j => fin (rain j)) (fin thr) (fin rate) grace (fin cap) wash (fin init) accum (n + i) := by
  rw [kimber_recurrence t (ht (by omega)) rain thr rate grace cap init accum hr hcap hA wash] at hc ⊢
  rw [kimber_recurrence (from_ n t) (ht (by omega)) (from_ n rain) thr rate grace cap c accum hr hcap hA (from_ n wash)]
  have e0 : from_ n t 1 - from_ n t 0 = t 1 - t 0 := hstep
  rw [e0]
  rw [fin_inj] at hc ⊢
  have ec : ∀ j, Cleaned (from_ n t) (from_ n rain) thr grace accum (from_ n wash) j ↔ Cleaned t rain thr grace accum wash (n + j) := by
    intro j
    constructor
    · rintro (h | ⟨l, hl, h1, h2⟩)
      · exact Or.inl h
      · rw [rain_from t ht _ rain n l dry] at h2
        exact Or.inr ⟨n + l, by omega, h1, h2⟩
    · rintro (h | ⟨l, hl, h1, h2⟩)
      · exact Or.inl h
      · have hln : n ≤ l := by
          by_contra hln
          have := damp l (by omega) (lt_of_le_of_lt (by linarith [ht (show n ≤ n + j by omega)]) h1)
          linarith
        obtain ⟨m, rfl⟩ : ∃ m, l = n + m := ⟨l - n, by omega⟩
        refine Or.inr ⟨m, by omega, h1, ?_⟩
        rw [rain_from t ht _ rain n m dry]
        exact h2
  induction i with
  | zero =>
    rw [soil, Nat.add_zero, ← hc]
    by_cases h : Cleaned t rain thr grace accum wash n
    · rw [if_pos ((ec 0).mpr h)]
      cases n <;> rw [soil, if_pos h]
    · rw [if_neg (mt (ec 0).mp h)]
      exact min_eq_right (soil_le _ _ _ _ hcap _)
  | succ i ih =>
    rw [show n + (i + 1) = (n + i) + 1 by omega, soil, soil, ih]
    have e := ec (i + 1)
    rw [show n + (i + 1) = (n + i) + 1 by omega] at e
    by_cases h : Cleaned t rain thr grace accum wash (n + i + 1)
    · rw [if_pos h, if_pos (e.mpr h)]
    · rw [if_neg h, if_neg (mt e.mp h)]

/-- Daily data, a washing rain on day 30, split at day 20. -/
example : ∃ c : ℝ, ∀ i, kimber (from_ 20 fun i => (i : ℝ) * 86400) (fun j => fin (from_ 20 (fun i => if i = 30 then (10 : ℝ) else 0) j)) (fin 6)
    (fin 0.0015) 14 (fin 0.3) (from_ 20 fun i => i = 5) (fin c) 24 i =
    kimber (fun i => (i : ℝ) * 86400) (fun j => fin (if j = 30 then 10 else 0)) (fin 6) (fin 0.0015) 14 (fin 0.3) (fun i => i = 5) (fin 0.01) 24
      (20 + i) := by
  refine ⟨_, kimber_continues (fun i => (i : ℝ) * 86400) (fun a b h => mul_le_mul_of_nonneg_right (by exact_mod_cast h) (by norm_num))
    (fun i => if i = 30 then 10 else 0) 6 0.0015 14 0.3 0.01 _ 24 (by norm_num) (by norm_num) (by norm_num) (fun i => i = 5) 20 (by norm_num)
    (fun j hj _ => if_neg (by omega)) (fun j hj _ => ?_)
    (kimber_recurrence (fun i => (i : ℝ) * 86400) (by norm_num) (fun i => if i = 30 then 10 else 0) 6 0.0015 14 0.3 0.01 24 (by norm_num) (by norm_num)
      (by norm_num) (fun i => i = 5) 20)⟩
  have : rainIn (fun i => (i : ℝ) * 86400) (24 * 3600) (fun i => if i = 30 then 10 else 0) j = 0 := by
    apply Finset.sum_eq_zero
    intro k hk
    simp only [Finset.mem_filter, Finset.mem_range] at hk
    rw [if_neg (by omega)]
  rw [this]; norm_num

/-! ## HSU -/

/-- **C198**, HSU: `hsu` has no argument for the dust on the module, but started right after a cleaning it gives the same values as on
the whole series, if the step does not change there and the accumulation period does not reach back over the start to a rain. -/
theorem hsu_continues (t : ℕ → ℝ) (ht : Monotone t) (rain : ℕ → ℝ) (thr tilt : ℝ) (pm25 pm10 : ℕ → ℝ) (v25 v10 period : ℝ) (hp : 0 < period)
    (n : ℕ) (hw : Washed t rain thr period n) (hstep : t (n + 2) - t (n + 1) = t (n + 1) - t n)
    (dry : ∀ j < n + 1, t (n + 1) - period < t j → rain j = 0) (i : ℕ) :
    hsu (from_ (n + 1) t) (fun j => fin (from_ (n + 1) rain j)) (fin thr) (fin tilt) (fun j => fin (from_ (n + 1) pm25 j))
        (fun j => fin (from_ (n + 1) pm10 j)) (fin v25) (fin v10) period i =
      hsu t (fun j => fin (rain j)) (fin thr) (fin tilt) (fun j => fin (pm25 j)) (fun j => fin (pm10 j)) (fin v25) (fin v10) period (n + 1 + i) := by
  unfold hsu
  rw [hsuMass_eq t rain thr tilt pm25 pm10 v25 v10 period hp,
    hsuMass_eq (from_ (n + 1) t) (from_ (n + 1) rain) thr tilt (from_ (n + 1) pm25) (from_ (n + 1) pm10) v25 v10 period hp]
  have ew : ∀ j, Washed (from_ (n + 1) t) (from_ (n + 1) rain) thr period j ↔ Washed t rain thr period (n + 1 + j) := by
    intro j
    unfold Washed
    rw [rain_from t ht period rain (n + 1) j dry]
  have hm : mass (Washed t rain thr period) (deposition t tilt pm25 pm10 v25 v10) n = 0 := by
    cases n <;> rw [mass, if_pos hw]
  have ed : ∀ j, deposition (from_ (n + 1) t) tilt (from_ (n + 1) pm25) (from_ (n + 1) pm10) v25 v10 j =
      deposition t tilt pm25 pm10 v25 v10 (n + 1 + j) := by
    intro j
    unfold deposition
    have : dtSec (from_ (n + 1) t) j = dtSec t (n + 1 + j) := by
      cases j with
      | zero => exact hstep
      | succ j => rfl
    rw [this]; rfl
  have key : mass (Washed (from_ (n + 1) t) (from_ (n + 1) rain) thr period)
      (deposition (from_ (n + 1) t) tilt (from_ (n + 1) pm25) (from_ (n + 1) pm10) v25 v10) i =
      mass (Washed t rain thr period) (deposition t tilt pm25 pm10 v25 v10) (n + 1 + i) := by
    induction i with
    | zero =>
      rw [Nat.add_zero, mass, mass, hm, ed, zero_add]
      have e := ew 0
      rw [Nat.add_zero] at e
      by_cases h : Washed t rain thr period (n + 1)
      · rw [if_pos h, if_pos (e.mpr h)]
      · rw [if_neg h, if_neg (mt e.mp h)]
    | succ i ih =>
      rw [show n + 1 + (i + 1) = (n + 1 + i) + 1 by omega, mass, mass, ih, ed]
      have e := ew (i + 1)
      rw [show n + 1 + (i + 1) = (n + 1 + i) + 1 by omega] at e ⊢
      by_cases h : Washed t rain thr period (n + 1 + i + 1)
      · rw [if_pos h, if_pos (e.mpr h)]
      · rw [if_neg h, if_neg (mt e.mp h)]
  rw [key]

/-- Hourly data, washed in hour 2. -/
example := hsu_continues (fun i => (i : ℝ) * 3600) hourly_mono (fun i => if i = 2 then 1 else 0) 0.5 20 (fun _ => 1e-5) (fun _ => 3e-5)
  0.0009 0.004 3600 (by norm_num) 2 (by simp [Washed, rainIn]; norm_num) (by norm_num)
  (fun j hj h => by
    have : j ≠ 2 := by
      rintro rfl
      norm_num at h
    simp [this])

end Pvlib.Props.Continuation
end
