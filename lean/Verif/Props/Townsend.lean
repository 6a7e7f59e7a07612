import Verif.Props.Snow

/-! # Property C229: Townsend's monthly snow loss: value, and more snow never means less loss -/

noncomputable section
open scoped Classical Real
namespace Pvlib.Props.Townsend
open Fl Pvlib.Tools Pvlib.Snow Series

/-! ### Specification (Townsend and Powers 2011, in the units of the function) -/

/-- What the function is given for the months of a year (or any number of periods). -/
structure Months where
  (snow events tilt humidity temp poa slant edge : ℕ → ℝ)

/-- What it is given once: string factor, angle of repose (degrees), share of front side irradiance. -/
structure Site where
  (string repose front : ℝ)

/-- Effective snow of a month, inches: half of the total, and as much again shared among its snowfalls. -/
def effective (total events : ℝ) : ℝ := if 0 < events then total / 2.54 * (1 + 1 / max events 1) / 2 else 0

/-- The period before period `i` of `n`, cyclically. -/
def before (n i : ℕ) : ℕ := if i = 0 then n - 1 else i - 1

/-- Two thirds this month's, one third last month's snow. -/
def weighted (n : ℕ) (m : Months) (i : ℕ) : ℝ := effective (m.snow (before n i)) (m.events (before n i)) / 3 + 2 * effective (m.snow i) (m.events i) / 3

/-- How far snow sliding off piles up towards the module's lower edge. -/
def pile (S slant edge tilt repose : ℝ) : ℝ :=
  slant * 39.37 * S * Real.cos (tilt * (π / 180)) / max ((edge * 39.37) ^ 2 - S ^ 2) 0.1 * 2 * Real.tan (repose * (π / 180))

/-- The loss before it is limited to [0, 1]. -/
def raw (s : Site) (S slant edge tilt humidity temp poa : ℝ) : ℝ :=
  57000 * S * Real.cos (tilt * (π / 180)) ^ 2 * (1 - 0.51 * Real.exp (-pile S slant edge tilt s.repose)) * (humidity / 100) / (temp + 273.15) ^ 2
    / (poa / 1000) ^ (0.67 : ℝ) * s.string * s.front

/-- The monthly loss the function reports. -/
def reported (n : ℕ) (m : Months) (s : Site) : Series :=
  lossTownsend n (fun j => fin (m.snow j)) (fun j => fin (m.events j)) (fun j => fin (m.tilt j)) (fun j => fin (m.humidity j)) (fun j => fin (m.temp j))
    (fun j => fin (m.poa j)) (fun j => fin (m.slant j)) (fun j => fin (m.edge j)) (fin s.string) (fin s.repose) (fin s.front)

/-! ### Value -/

theorem effective_fin (total events : ℝ) : townsendEffectiveSnow (fin total / 2.54) (fin events) = fin (effective total events) := by
  have h : max events 1 ≠ 0 := (lt_of_lt_of_le one_pos (le_max_right _ _)).ne'
  unfold townsendEffectiveSnow effective
  simp only [ofScientific_eq, one_eq, zero_eq, maximum_fin, fin_div (show (2.54 : ℝ) ≠ 0 by norm_num), fin_div h, fin_add, fin_mul, fin_lt]
  by_cases he : 0 < events
  · rw [npwhere_pos he, if_pos he, fin_inj]
    ring
  · rw [npwhere_neg he, if_neg he]

/-- The loss of period `i`, from the weather of that period and the snow of the period before it. -/
theorem value {n : ℕ} {m : Months} {s : Site} {i : ℕ} (hi : i < n) (hT : m.temp i ≠ -273.15) (hp : 0 < m.poa i) (hr : Real.cos (s.repose * (π / 180)) ≠ 0) :
    reported n m s i = fin (min (max (raw s (weighted n m i) (m.slant i) (m.edge i) (m.tilt i) (m.humidity i) (m.temp i) (m.poa i)) 0) 1) := by
  have hprev : (i + n - 1) % n = before n i := by
    unfold before
    split_ifs with h
    · subst h; rw [Nat.zero_add]; exact Nat.mod_eq_of_lt (by omega)
    · rw [show i + n - 1 = (i - 1) + n by omega, Nat.add_mod_right]
      exact Nat.mod_eq_of_lt (by omega)
  have hT' : (m.temp i + 273.15) ^ 2 ≠ 0 := by
    apply pow_ne_zero; intro h; apply hT; linarith
  have hp1 : (0 : ℝ) < m.poa i / 1000 := by positivity
  have hp' : (m.poa i / 1000) ^ (0.67 : ℝ) ≠ 0 := (Real.rpow_pos_of_pos hp1 _).ne'
  have hle : ∀ x : ℝ, max x (0.1 : ℝ) ≠ 0 := fun x => (lt_of_lt_of_le (by norm_num) (le_max_right x 0.1)).ne'
  have e : 1 / 3 * effective (m.snow (before n i)) (m.events (before n i)) + 2 / 3 * effective (m.snow i) (m.events i) = weighted n m i := by
    unfold weighted
    ring
  unfold reported lossTownsend roll1
  dsimp only
  rw [hprev, effective_fin, effective_fin]
  simp only [zero_eq, one_eq, ofNat_eq, ofScientific_eq, fin_div (show (3 : ℝ) ≠ 0 by norm_num), fin_mul, fin_add, e]
  simp only [fin_mul, fin_add, fin_pow, fin_sub, cosd_fin, tand_fin hr, fin_div (show (100 : ℝ) ≠ 0 by norm_num), fin_div (show (1000 : ℝ) ≠ 0 by norm_num),
    maximum_fin, fin_div (hle _), fin_div hT', rpow_fin_pos hp1, fin_div hp', neg_fin, exp_fin, clip_fin]
  unfold raw pile
  norm_num

/-! ### Monotonicity -/

/-- A period on Earth: nothing negative, some light, modules tilted between flat and upright. -/
structure Plausible (n : ℕ) (m : Months) (i : ℕ) : Prop where
  snow : 0 ≤ m.snow i
  snow_before : 0 ≤ m.snow (before n i)
  tilt : 0 ≤ m.tilt i
  tilt_le : m.tilt i ≤ 90
  humidity : 0 ≤ m.humidity i
  temp : -273.15 < m.temp i
  poa : 0 < m.poa i
  slant : 0 ≤ m.slant i
  edge : 0 ≤ m.edge i

/-- Period `i` is no better for snow losses in `m'` than in `m`. -/
structure Worse (n : ℕ) (m m' : Months) (i : ℕ) : Prop where
  snow : m.snow i ≤ m'.snow i
  events : m.events i = m'.events i
  snow_before : m.snow (before n i) ≤ m'.snow (before n i)
  events_before : m.events (before n i) = m'.events (before n i)
  tilt : m'.tilt i ≤ m.tilt i
  humidity : m.humidity i ≤ m'.humidity i
  temp : m'.temp i ≤ m.temp i
  poa : m'.poa i ≤ m.poa i
  slant : m.slant i ≤ m'.slant i
  edge : m'.edge i ≤ m.edge i

theorem effective_nonneg {t e : ℝ} (h : 0 ≤ t) : 0 ≤ effective t e := by
  unfold effective
  split_ifs
  · have : 0 < max e 1 := lt_of_lt_of_le one_pos (le_max_right _ _)
    positivity
  · exact le_rfl

theorem effective_mono {t t' : ℝ} (e : ℝ) (h : t ≤ t') : effective t e ≤ effective t' e := by
  unfold effective
  split_ifs
  · have : 0 < max e 1 := lt_of_lt_of_le one_pos (le_max_right _ _)
    gcongr
  · exact le_rfl

private theorem cos_nonneg' {t : ℝ} (h0 : 0 ≤ t) (h : t ≤ 90) : 0 ≤ Real.cos (t * (π / 180)) := by
  have := Real.pi_pos
  exact Real.cos_nonneg_of_mem_Icc ⟨by nlinarith, by nlinarith⟩

private theorem cos_anti {t t' : ℝ} (h0 : 0 ≤ t') (h : t' ≤ t) (h9 : t ≤ 90) : Real.cos (t * (π / 180)) ≤ Real.cos (t' * (π / 180)) := by
  have := Real.pi_pos
  exact Real.cos_le_cos_of_nonneg_of_le_pi (by positivity) (by nlinarith) (by gcongr)

private theorem tan_nonneg' {t : ℝ} (h0 : 0 ≤ t) (h : t < 90) : 0 ≤ Real.tan (t * (π / 180)) := by
  have := Real.pi_pos
  exact Real.tan_nonneg_of_nonneg_of_le_pi_div_two (by positivity) (by nlinarith)

private theorem tan_mono' {t t' : ℝ} (h0 : 0 ≤ t) (h : t ≤ t') (h9 : t' < 90) : Real.tan (t * (π / 180)) ≤ Real.tan (t' * (π / 180)) := by
  have := Real.pi_pos
  rcases h.eq_or_lt with rfl | h
  · exact le_rfl
  · exact (Real.tan_lt_tan_of_lt_of_lt_pi_div_two (by nlinarith) (by nlinarith) (by gcongr)).le

private theorem pile_nonneg {S L E t r : ℝ} (hS : 0 ≤ S) (hL : 0 ≤ L) (h0 : 0 ≤ t) (h9 : t ≤ 90) (r0 : 0 ≤ r) (r9 : r < 90) : 0 ≤ pile S L E t r := by
  have := cos_nonneg' h0 h9
  have := tan_nonneg' r0 r9
  have : 0 < max ((E * 39.37) ^ 2 - S ^ 2) 0.1 := lt_of_lt_of_le (by norm_num) (le_max_right _ _)
  unfold pile
  positivity

private theorem pile_mono {S S' L L' E E' t t' r r' : ℝ} (hS : 0 ≤ S) (hSS : S ≤ S') (hL : 0 ≤ L) (hLL : L ≤ L') (hE : 0 ≤ E') (hEE : E' ≤ E) (h0 : 0 ≤ t') (ht : t' ≤ t)
    (h9 : t ≤ 90) (r0 : 0 ≤ r) (hr : r ≤ r') (r9 : r' < 90) : pile S L E t r ≤ pile S' L' E' t' r' := by
  have c0 := cos_nonneg' (h0.trans ht) h9
  have c1 := cos_anti h0 ht h9
  have t0 := tan_nonneg' r0 (hr.trans_lt r9)
  have t1 := tan_mono' r0 hr r9
  have d0 : 0 < max ((E' * 39.37) ^ 2 - S' ^ 2) 0.1 := lt_of_lt_of_le (by norm_num) (le_max_right _ _)
  have d1 : max ((E' * 39.37) ^ 2 - S' ^ 2) 0.1 ≤ max ((E * 39.37) ^ 2 - S ^ 2) 0.1 := by gcongr
  unfold pile
  generalize Real.cos (t * (π / 180)) = c at *
  generalize Real.cos (t' * (π / 180)) = c' at *
  generalize Real.tan (r * (π / 180)) = u at *
  generalize Real.tan (r' * (π / 180)) = u' at *
  generalize max ((E' * 39.37) ^ 2 - S' ^ 2) 0.1 = d' at *
  generalize max ((E * 39.37) ^ 2 - S ^ 2) 0.1 = d at *
  have c0' := c0.trans c1
  have L0' := hL.trans hLL
  have S0' := hS.trans hSS
  gcongr

/-- Never less loss with more snow this period or the one before, flatter modules, damper or colder air, less light, longer slant heights, lower edges, more
strings affected, a steeper angle of repose, a larger front share. -/
theorem worse {n : ℕ} {m m' : Months} {s s' : Site} {i : ℕ} (hi : i < n) (h : Plausible n m i) (h' : Plausible n m' i) (w : Worse n m m' i) (r0 : 0 ≤ s.repose)
    (hr : s.repose ≤ s'.repose) (r9 : s'.repose < 90) (s0 : 0 ≤ s.string) (hs : s.string ≤ s'.string) (f0 : 0 ≤ s.front) (hf : s.front ≤ s'.front) :
    ∃ l l', reported n m s i = fin l ∧ reported n m' s' i = fin l' ∧ l ≤ l' := by
  have hpi := Real.pi_pos
  have cr : ∀ r : ℝ, 0 ≤ r → r < 90 → Real.cos (r * (π / 180)) ≠ 0 := fun r a b => (Real.cos_pos_of_mem_Ioo ⟨by nlinarith, by nlinarith⟩).ne'
  refine ⟨_, _, value hi h.temp.ne' h.poa (cr _ r0 (hr.trans_lt r9)), value hi h'.temp.ne' h'.poa (cr _ (r0.trans hr) r9), ?_⟩
  refine min_le_min (max_le_max ?_ le_rfl) le_rfl
  have S0 : 0 ≤ weighted n m i := by
    have := effective_nonneg (e := m.events i) h.snow
    have := effective_nonneg (e := m.events (before n i)) h.snow_before
    unfold weighted
    positivity
  have S1 : weighted n m i ≤ weighted n m' i := by
    have a := effective_mono (m.events i) w.snow
    have b := effective_mono (m.events (before n i)) w.snow_before
    unfold weighted
    rw [← w.events, ← w.events_before]
    linarith
  have p0 := pile_nonneg (E := m.edge i) S0 h.slant h.tilt h.tilt_le r0 (hr.trans_lt r9)
  have p1 := pile_mono S0 S1 h.slant w.slant h'.edge w.edge h'.tilt w.tilt h.tilt_le r0 hr r9
  have c0 := cos_nonneg' h.tilt h.tilt_le
  have c1 := cos_anti h'.tilt w.tilt h.tilt_le
  unfold raw
  have S2 := S0.trans S1
  generalize weighted n m i = S at *
  generalize weighted n m' i = S' at *
  generalize pile S _ _ _ _ = p at *
  generalize pile S' _ _ _ _ = p' at *
  have e0 : 0 ≤ 1 - 0.51 * Real.exp (-p) := by
    have : Real.exp (-p) ≤ 1 := Real.exp_le_one_iff.mpr (by linarith)
    linarith
  have e1 : 1 - 0.51 * Real.exp (-p) ≤ 1 - 0.51 * Real.exp (-p') := by
    have : Real.exp (-p') ≤ Real.exp (-p) := Real.exp_le_exp.mpr (by linarith)
    linarith
  generalize 1 - 0.51 * Real.exp (-p) = g at *
  generalize 1 - 0.51 * Real.exp (-p') = g' at *
  generalize Real.cos (m.tilt i * (π / 180)) = c at *
  generalize Real.cos (m'.tilt i * (π / 180)) = c' at *
  have c2 := c0.trans c1
  have e2 := e0.trans e1
  have T0 : 0 < m'.temp i + 273.15 := by linarith [h'.temp]
  have T1 : m'.temp i + 273.15 ≤ m.temp i + 273.15 := by linarith [w.temp]
  have q0 : 0 < (m'.poa i / 1000) ^ (0.67 : ℝ) := Real.rpow_pos_of_pos (by have := h'.poa; positivity) _
  have q1 : (m'.poa i / 1000) ^ (0.67 : ℝ) ≤ (m.poa i / 1000) ^ (0.67 : ℝ) :=
    Real.rpow_le_rpow (by have := h'.poa; positivity) (by have := w.poa; gcongr) (by norm_num)
  generalize (m'.poa i / 1000) ^ (0.67 : ℝ) = q' at *
  generalize (m.poa i / 1000) ^ (0.67 : ℝ) = q at *
  have a1 := h.humidity
  have a2 := w.humidity
  have a3 := h'.humidity
  have s2 := s0.trans hs
  have f2 := f0.trans hf
  generalize m.temp i + 273.15 = T at *
  generalize m'.temp i + 273.15 = T' at *
  gcongr

/-- The same snow in more falls never raises the loss, once there is any fall at all. -/
theorem more_falls {t e e' : ℝ} (ht : 0 ≤ t) (he : 0 < e) (h : e ≤ e') : effective t e' ≤ effective t e := by
  unfold effective
  rw [if_pos he, if_pos (he.trans_le h)]
  have : 0 < max e 1 := lt_of_lt_of_le one_pos (le_max_right _ _)
  gcongr

/-- A snow total without falls counts for nothing; from one fall on it counts at least half. -/
theorem counts {t e : ℝ} (ht : 0 ≤ t) : (e ≤ 0 → effective t e = 0) ∧ (0 < e → t / 2.54 / 2 ≤ effective t e ∧ effective t e ≤ t / 2.54) := by
  unfold effective
  refine ⟨fun h => if_neg (not_lt.mpr h), fun h => ?_⟩
  rw [if_pos h]
  have h1 : 1 ≤ max e 1 := le_max_right _ _
  have h2 : 0 ≤ 1 / max e 1 := by positivity
  have h3 : 1 / max e 1 ≤ 1 := by
    rw [div_le_one (by linarith)]
    exact h1
  have h4 : 0 ≤ t / 2.54 := by positivity
  constructor <;> nlinarith

/-! ### Example: a snowy February and the year before it -/

/-- Twelve months, 25 cm of snow in three falls each, at 30 degrees of tilt. -/
def year (snow temp : ℝ) : Months :=
  ⟨fun _ => snow, fun _ => 3, fun _ => 30, fun _ => 80, fun _ => temp, fun _ => 80000, fun _ => 2, fun _ => 0.5⟩

theorem year_real (snow temp : ℝ) (h : 0 ≤ snow) (ht : -273.15 < temp) (i : ℕ) : Plausible 12 (year snow temp) i :=
  ⟨h, h, by norm_num [year], by norm_num [year], by norm_num [year], ht, by norm_num [year], by norm_num [year], by norm_num [year]⟩

example : ∃ l l', reported 12 (year 10 2) ⟨1, 40, 1⟩ 1 = fin l ∧ reported 12 (year 25 (-4)) ⟨1, 40, 1⟩ 1 = fin l' ∧ l ≤ l' :=
  worse (by norm_num) (year_real _ _ (by norm_num) (by norm_num) _) (year_real _ _ (by norm_num) (by norm_num) _)
    ⟨by norm_num [year], rfl, by norm_num [year], rfl, le_rfl, le_rfl, by norm_num [year], le_rfl, le_rfl, le_rfl⟩
    (by norm_num) le_rfl (by norm_num) (by norm_num) le_rfl (by norm_num) le_rfl

end Pvlib.Props.Townsend
end
