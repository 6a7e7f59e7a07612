import Mathlib.Tactic.IntervalCases
import Verif.Model.Polling
import Mathlib.Algebra.Order.Floor.Semiring
import Mathlib.Algebra.Order.Archimedean.Basic
import Mathlib.Data.Real.Archimedean
import Mathlib.Tactic.Linarith
import Mathlib.Tactic.NormNum

/-! # Property C164: waiting for a server's results -/

namespace Pvlib.Props.Polling
open Pvlib Pvlib.Polling

/-- How an answer ends the waiting. -/
def ending : Answer → Option Outcome
  | .successful => some .ready
  | .failed => some .failed
  | .raises e => some (.raises e)
  | .other => none

/-- The waiting has not ended before request `n`. -/
def Waiting (server : ℕ → Answer) (n : ℕ) : Prop := ∀ i < n, ending (server i) = none

private theorem other_of {a : Answer} (h : ending a = none) : a = .other := by
  cases a <;> simp_all [ending]

/-- `get_era5`, if a final answer comes in time (that is, to the first request or to one made at most `timeout` seconds later): the
loop ends with that answer, at that request, having slept one second between requests. -/
theorem era5_answer (server : ℕ → Answer) (timeout : ℝ) (n : ℕ) (o : Outcome) (hw : Waiting server n) (he : ending (server n) = some o)
    (ht : n = 0 ∨ (n : ℝ) ≤ timeout) (fuel : ℕ) (hf : n < fuel) : era5Loop server timeout fuel 0 = some ⟨o, n + 1, n⟩ := by
  have gen : ∀ k, k ≤ n → ∀ fuel, n - k < fuel → era5Loop server timeout fuel k = some ⟨o, n + 1, n⟩ := by
    intro k hk
    induction hd : n - k generalizing k with
    | zero =>
      intro fuel hf
      have hkn : k = n := by omega
      subst hkn
      obtain ⟨f, rfl⟩ : ∃ f, fuel = f + 1 := ⟨fuel - 1, by omega⟩
      unfold era5Loop
      cases hs : server k <;> rw [hs] at he <;> simp [ending] at he <;> subst he <;> rfl
    | succ d ih =>
      intro fuel hf
      obtain ⟨f, rfl⟩ : ∃ f, fuel = f + 1 := ⟨fuel - 1, by omega⟩
      unfold era5Loop
      rw [other_of (hw k (by omega))]
      dsimp only
      have : ¬ (((k + 1 : ℕ) : ℝ) * 1 > timeout) := by
        rcases ht with h0 | ht
        · omega
        · have : ((k + 1 : ℕ) : ℝ) ≤ n := by exact_mod_cast (by omega : k + 1 ≤ n)
          linarith
      rw [if_neg this]
      exact ih (k + 1) (by omega) (by omega) f (by omega)
  exact gen 0 (Nat.zero_le _) fuel (by omega)

/-- Otherwise it raises Timeout after the requests made at 0, 1, ..., ⌊timeout⌋ seconds. -/
theorem era5_timeout (server : ℕ → Answer) (timeout : ℝ) (hw : Waiting server (⌊timeout⌋₊ + 1)) (fuel : ℕ) (hf : ⌊timeout⌋₊ < fuel) :
    era5Loop server timeout fuel 0 = some ⟨.timeout, ⌊timeout⌋₊ + 1, ⌊timeout⌋₊⟩ := by
  set N := ⌊timeout⌋₊ with hN
  have gen : ∀ k, k ≤ N → ∀ fuel, N - k < fuel → era5Loop server timeout fuel k = some ⟨.timeout, N + 1, N⟩ := by
    intro k hk
    induction hd : N - k generalizing k with
    | zero =>
      intro fuel hf
      have hkn : k = N := by omega
      obtain ⟨f, rfl⟩ : ∃ f, fuel = f + 1 := ⟨fuel - 1, by omega⟩
      unfold era5Loop
      rw [other_of (hw k (by omega))]
      dsimp only
      have : ((k + 1 : ℕ) : ℝ) * 1 > timeout := by
        have := Nat.lt_floor_add_one timeout
        rw [mul_one, hkn]
        push_cast
        exact this
      rw [if_pos this, hkn]
    | succ d ih =>
      intro fuel hf
      obtain ⟨f, rfl⟩ : ∃ f, fuel = f + 1 := ⟨fuel - 1, by omega⟩
      unfold era5Loop
      rw [other_of (hw k (by omega))]
      dsimp only
      have : ¬ (((k + 1 : ℕ) : ℝ) * 1 > timeout) := by
        have h1 : k + 1 ≤ N := by omega
        have : 0 < N := by omega
        have h2 := (Nat.le_floor_iff' (a := timeout) (n := k + 1) (by omega)).mp h1
        push_cast at h2 ⊢
        linarith
      rw [if_neg this]
      exact ih (k + 1) (by omega) (by omega) f (by omega)
  exact gen 0 (Nat.zero_le _) fuel (by omega)

example : era5Loop (fun _ => .other) 2 10 0 = some ⟨.timeout, ⌊(2 : ℝ)⌋₊ + 1, ⌊(2 : ℝ)⌋₊⟩ :=
  era5_timeout _ 2 (fun _ _ => rfl) 10 (by norm_num)

/-- Whatever the server answers, the loop ends: after at most ⌊timeout⌋ + 1 requests, having slept at most `timeout` seconds (or not at
all). -/
theorem era5_terminates (server : ℕ → Answer) (timeout : ℝ) (h0 : 0 ≤ timeout) :
    ∃ e, (∀ fuel, ⌊timeout⌋₊ < fuel → era5Loop server timeout fuel 0 = some e) ∧ e.polls ≤ ⌊timeout⌋₊ + 1 ∧ (e.slept : ℝ) ≤ timeout := by
  classical
  by_cases h : Waiting server (⌊timeout⌋₊ + 1)
  · exact ⟨_, era5_timeout server timeout h, le_rfl, Nat.floor_le h0⟩
  · unfold Waiting at h
    push Not at h
    have hex : ∃ i, i < ⌊timeout⌋₊ + 1 ∧ ending (server i) ≠ none := h
    obtain ⟨h1, h2⟩ := Nat.find_spec hex
    set n := Nat.find hex with hn
    have hw : Waiting server n := by
      intro i hi
      by_contra hc
      exact Nat.find_min hex hi ⟨by omega, hc⟩
    obtain ⟨o, ho⟩ := Option.ne_none_iff_exists'.mp h2
    have hle : (n : ℝ) ≤ timeout := by
      have : (n : ℝ) ≤ ⌊timeout⌋₊ := by exact_mod_cast (by omega : n ≤ ⌊timeout⌋₊)
      exact this.trans (Nat.floor_le h0)
    refine ⟨⟨o, n + 1, n⟩, fun fuel hf => era5_answer server timeout n o hw ho (Or.inr hle) fuel (by omega), ?_, hle⟩
    dsimp only
    omega

/-- `get_solaranywhere`: the loop ends with the first final answer if no earlier check of the clock was too late (data that arrive after the
limit are accepted) ... -/
theorem solaranywhere_answer (server : ℕ → Answer) (clock : ℕ → ℝ) (start timeout : ℝ) (n : ℕ) (o : Outcome) (hw : Waiting server n)
    (he : ending (server n) = some o) (ht : ∀ i < n, clock i - start ≤ timeout) (fuel : ℕ) (hf : n < fuel) :
    solaranywhereLoop server clock start timeout fuel 0 = some ⟨o, n + 1, 5 * n⟩ := by
  have gen : ∀ k, k ≤ n → ∀ fuel, n - k < fuel → solaranywhereLoop server clock start timeout fuel k = some ⟨o, n + 1, 5 * n⟩ := by
    intro k hk
    induction hd : n - k generalizing k with
    | zero =>
      intro fuel hf
      have hkn : k = n := by omega
      subst hkn
      obtain ⟨f, rfl⟩ : ∃ f, fuel = f + 1 := ⟨fuel - 1, by omega⟩
      unfold solaranywhereLoop
      cases hs : server k <;> rw [hs] at he <;> simp [ending] at he <;> subst he <;> rfl
    | succ d ih =>
      intro fuel hf
      obtain ⟨f, rfl⟩ : ∃ f, fuel = f + 1 := ⟨fuel - 1, by omega⟩
      unfold solaranywhereLoop
      rw [other_of (hw k (by omega))]
      dsimp only
      rw [if_neg (by have := ht k (by omega); linarith)]
      exact ih (k + 1) (by omega) (by omega) f (by omega)
  exact gen 0 (Nat.zero_le _) fuel (by omega)

example := solaranywhere_answer (fun i => if i = 2 then .successful else .other) (fun i => 7 + 5.1 * i) 7 60 2 .ready
  (fun i hi => by interval_cases i <;> rfl) rfl (fun i hi => by interval_cases i <;> norm_num) 10 (by norm_num)

/-- ... and otherwise with TimeoutError at the first check that is too late. -/
theorem solaranywhere_timeout (server : ℕ → Answer) (clock : ℕ → ℝ) (start timeout : ℝ) (n : ℕ) (hw : Waiting server (n + 1))
    (ht : ∀ i < n, clock i - start ≤ timeout) (hn : timeout < clock n - start) (fuel : ℕ) (hf : n < fuel) :
    solaranywhereLoop server clock start timeout fuel 0 = some ⟨.timeout, n + 1, 5 * n⟩ := by
  have gen : ∀ k, k ≤ n → ∀ fuel, n - k < fuel → solaranywhereLoop server clock start timeout fuel k = some ⟨.timeout, n + 1, 5 * n⟩ := by
    intro k hk
    induction hd : n - k generalizing k with
    | zero =>
      intro fuel hf
      have hkn : k = n := by omega
      subst hkn
      obtain ⟨f, rfl⟩ : ∃ f, fuel = f + 1 := ⟨fuel - 1, by omega⟩
      unfold solaranywhereLoop
      rw [other_of (hw k (by omega))]
      dsimp only
      rw [if_pos hn]
    | succ d ih =>
      intro fuel hf
      obtain ⟨f, rfl⟩ : ∃ f, fuel = f + 1 := ⟨fuel - 1, by omega⟩
      unfold solaranywhereLoop
      rw [other_of (hw k (by omega))]
      dsimp only
      rw [if_neg (by have := ht k (by omega); linarith)]
      exact ih (k + 1) (by omega) (by omega) f (by omega)
  exact gen 0 (Nat.zero_le _) fuel (by omega)

example := solaranywhere_timeout (fun _ => .other) (fun i => 7 + 5.1 * i) 7 8 2
  (fun _ _ => rfl) (fun i hi => by interval_cases i <;> norm_num) (by norm_num) 10 (by norm_num)

/-- With a clock that advances by the five seconds of sleep between requests, the loop ends after at most ⌊timeout / 5⌋ + 2 requests. -/
theorem solaranywhere_terminates (server : ℕ → Answer) (clock : ℕ → ℝ) (start timeout : ℝ) (hclock : ∀ i : ℕ, start + 5 * (i : ℝ) ≤ clock i) :
    ∃ e, (∀ fuel, ⌊timeout / 5⌋₊ + 1 < fuel → solaranywhereLoop server clock start timeout fuel 0 = some e) ∧ e.polls ≤ ⌊timeout / 5⌋₊ + 2 := by
  classical
  have hlate : timeout < clock (⌊timeout / 5⌋₊ + 1) - start := by
    have h1 := Nat.lt_floor_add_one (timeout / 5)
    have h2 := hclock (⌊timeout / 5⌋₊ + 1)
    push_cast at h2
    have h3 : timeout < 5 * ((⌊timeout / 5⌋₊ : ℝ) + 1) := by
      have := (div_lt_iff₀ (by norm_num : (0 : ℝ) < 5)).mp h1
      linarith
    linarith
  -- the first request after which the loop ends
  have hex : ∃ i, ending (server i) ≠ none ∨ timeout < clock i - start := ⟨_, Or.inr hlate⟩
  have hle : Nat.find hex ≤ ⌊timeout / 5⌋₊ + 1 := Nat.find_min' hex (Or.inr hlate)
  have hspec := Nat.find_spec hex
  have hmin : ∀ i < Nat.find hex, ending (server i) = none ∧ clock i - start ≤ timeout := by
    intro i hi
    have := Nat.find_min hex hi
    push Not at this
    exact this
  set n := Nat.find hex with hn
  by_cases hend : ending (server n) = none
  · have ht : timeout < clock n - start := hspec.resolve_left (fun h => h hend)
    refine ⟨⟨.timeout, n + 1, 5 * n⟩, fun fuel hf => solaranywhere_timeout server clock start timeout n ?_ (fun i hi => (hmin i hi).2) ht fuel (by omega), ?_⟩
    · intro i hi
      rcases Nat.lt_succ_iff_lt_or_eq.mp hi with h | h
      · exact (hmin i h).1
      · rw [h]; exact hend
    · dsimp only; omega
  · obtain ⟨o, ho⟩ := Option.ne_none_iff_exists'.mp hend
    refine ⟨⟨o, n + 1, 5 * n⟩, fun fuel hf => solaranywhere_answer server clock start timeout n o (fun i hi => (hmin i hi).1) ho
      (fun i hi => (hmin i hi).2) fuel (by omega), ?_⟩
    dsimp only; omega

/-- If the clock stands still and the server never finishes, the loop does not end. -/
theorem solaranywhere_stuck (start timeout : ℝ) (h0 : 0 ≤ timeout) (fuel n : ℕ) :
    solaranywhereLoop (fun _ => .other) (fun _ => start) start timeout fuel n = none := by
  induction fuel generalizing n with
  | zero => rfl
  | succ f ih =>
    unfold solaranywhereLoop
    dsimp only
    rw [if_neg (by linarith)]
    exact ih (n + 1)

/-! ### Witnesses -/

/-- Two seconds of waiting. -/
example : era5Loop (fun i => if i = 2 then .successful else .other) 60 100 0 = some ⟨.ready, 3, 2⟩ :=
  era5_answer _ 60 2 .ready (fun i hi => by
    have : i ≠ 2 := by omega
    simp [ending, this]) rfl (Or.inr (by norm_num)) 100 (by norm_num)

/-- A clock as assumed. -/
example : ∀ i : ℕ, (7 : ℝ) + 5 * (i : ℝ) ≤ 7 + 5.1 * i + 0.3 := by
  intro i
  have : (0 : ℝ) ≤ i := Nat.cast_nonneg i
  linarith

end Pvlib.Props.Polling
