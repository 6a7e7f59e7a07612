import Verif.Model.Location
import Verif.Props.Spec

/-! # Properties C45-C50: `pvlib.atmosphere` and `Location.get_airmass` -/

noncomputable section
open scoped Classical
open Real
namespace Pvlib.Props.Atmosphere
open Fl Pvlib.Atmosphere Pvlib.Spec

/-! ### C45: humidity and dew point -/

/-- The Magnus exponent `c1 T / (c2 + T)`. -/
def magnus (c1 c2 T : ℝ) : ℝ := c1 * T / (c2 + T)

private theorem rh_fin (c0 c1 c2 T D : ℝ) (h0 : c0 ≠ 0) (hT : c2 + T ≠ 0) (hD : c2 + D ≠ 0) :
    rhFromTdew (fin T) (fin D) (fin c0) (fin c1) (fin c2) =
      fin (100 * Real.exp (magnus c1 c2 D - magnus c1 c2 T)) := by
  have he := Real.exp_pos (magnus c1 c2 T)
  have h1 : c0 * Real.exp (c1 * T / (c2 + T)) ≠ 0 := mul_ne_zero h0 (Real.exp_pos _).ne'
  simp only [rhFromTdew, fin_mul, fin_add, fin_div hT, fin_div hD, exp_fin, fin_div h1, ofNat_eq]
  rw [Real.exp_sub]
  unfold magnus
  congr 1
  field_simp

private theorem tdew_fin (c0 c1 c2 T r : ℝ) (hr : 0 < r) (hT : c2 + T ≠ 0)
    (hl : c1 - (magnus c1 c2 T + Real.log (r / 100)) ≠ 0) :
    tdewFromRh (fin T) (fin r) (fin c0) (fin c1) (fin c2) =
      fin (c2 * (magnus c1 c2 T + Real.log (r / 100)) / (c1 - (magnus c1 c2 T + Real.log (r / 100)))) := by
  have h100 : (0 : ℝ) < r / 100 := by positivity
  simp only [tdewFromRh, fin_mul, fin_add, fin_div hT, ofNat_eq]
  rw [fin_div (by norm_num : (100 : ℝ) ≠ 0), log_fin h100]
  unfold magnus at hl ⊢
  simp only [fin_add, fin_mul, fin_sub]
  rw [fin_div hl]

/-- **C45**: `tdew_from_rh(T, rh_from_tdew(T, Td)) = Td`: for every air temperature and dew point where the Magnus
formula is defined, and every choice of Magnus coefficients. -/
theorem tdew_of_rh_of_tdew (c0 c1 c2 T D : ℝ) (h0 : c0 ≠ 0) (h1 : c1 ≠ 0) (h2 : c2 ≠ 0) (hT : c2 + T ≠ 0)
    (hD : c2 + D ≠ 0) :
    tdewFromRh (fin T) (rhFromTdew (fin T) (fin D) (fin c0) (fin c1) (fin c2)) (fin c0) (fin c1) (fin c2)
      = fin D := by
  rw [rh_fin c0 c1 c2 T D h0 hT hD]
  have hp : (0 : ℝ) < 100 * Real.exp (magnus c1 c2 D - magnus c1 c2 T) := by positivity
  have hl : magnus c1 c2 T + Real.log (100 * Real.exp (magnus c1 c2 D - magnus c1 c2 T) / 100)
      = magnus c1 c2 D := by
    rw [mul_div_cancel_left₀ _ (by norm_num : (100 : ℝ) ≠ 0), Real.log_exp]; ring
  have hd : c1 - magnus c1 c2 D = c1 * c2 / (c2 + D) := by unfold magnus; field_simp; ring
  rw [tdew_fin c0 c1 c2 T _ hp hT]
  · rw [hl, hd]
    unfold magnus
    congr 1
    field_simp
  · rw [hl, hd]
    exact div_ne_zero (mul_ne_zero h1 h2) hD

example := tdew_of_rh_of_tdew 6.112 17.62 243.12 20 12 (by norm_num) (by norm_num) (by norm_num) (by norm_num) (by norm_num)

/-- **C45**: `rh_from_tdew(T, tdew_from_rh(T, rh)) = rh` for every positive relative humidity up to 100 % (and every
positive pair of Magnus coefficients, air temperature above the pole `-c2`). -/
theorem rh_of_tdew_of_rh (c0 c1 c2 T r : ℝ) (h0 : c0 ≠ 0) (h1 : 0 < c1) (h2 : 0 < c2) (hT : 0 < c2 + T)
    (hr : 0 < r) (hr1 : r ≤ 100) :
    rhFromTdew (fin T) (tdewFromRh (fin T) (fin r) (fin c0) (fin c1) (fin c2)) (fin c0) (fin c1) (fin c2)
      = fin r := by
  set L := magnus c1 c2 T + Real.log (r / 100) with hLdef
  have hlog : Real.log (r / 100) ≤ 0 := Real.log_nonpos (by positivity) (by linarith)
  have hm : magnus c1 c2 T < c1 := by
    unfold magnus
    rw [div_lt_iff₀ hT]; nlinarith
  have hL : 0 < c1 - L := by linarith
  rw [tdew_fin c0 c1 c2 T r hr hT.ne' hL.ne']
  have hden : c2 + c2 * L / (c1 - L) = c1 * c2 / (c1 - L) := by field_simp; ring
  have hdp : 0 < c2 + c2 * L / (c1 - L) := by rw [hden]; positivity
  rw [rh_fin c0 c1 c2 T _ h0 hT.ne' hdp.ne']
  have : magnus c1 c2 (c2 * L / (c1 - L)) = L := by
    have := hL.ne'
    unfold magnus
    rw [hden]
    field_simp
  rw [this, hLdef]
  rw [show magnus c1 c2 T + Real.log (r / 100) - magnus c1 c2 T = Real.log (r / 100) by ring,
    Real.exp_log (by positivity)]
  congr 1; ring

example := rh_of_tdew_of_rh 6.112 17.62 243.12 20 45 (by norm_num) (by norm_num) (by norm_num) (by norm_num) (by norm_num)
  (by norm_num)

/-- **C45**: saturation: the humidity is 100 % exactly when the dew point equals the air temperature, and below
100 % exactly when the dew point is lower (positive Magnus coefficients, both temperatures above the pole). -/
theorem rh_le_100_iff (c0 c1 c2 T D : ℝ) (h0 : c0 ≠ 0) (h1 : 0 < c1) (h2 : 0 < c2) (hT : 0 < c2 + T)
    (hD : 0 < c2 + D) :
    ∃ r : ℝ, rhFromTdew (fin T) (fin D) (fin c0) (fin c1) (fin c2) = fin r ∧ 0 < r ∧
      (r < 100 ↔ D < T) ∧ (r = 100 ↔ D = T) := by
  refine ⟨_, rh_fin c0 c1 c2 T D h0 hT.ne' hD.ne', by positivity, ?_, ?_⟩
  · have : magnus c1 c2 D - magnus c1 c2 T = c1 * c2 * (D - T) / ((c2 + D) * (c2 + T)) := by
      unfold magnus; field_simp; ring
    constructor
    · intro h
      have h' : Real.exp (magnus c1 c2 D - magnus c1 c2 T) < 1 := by linarith
      rw [Real.exp_lt_one_iff, this, div_lt_iff₀ (by positivity), zero_mul] at h'
      by_contra hc
      have : 0 ≤ c1 * c2 * (D - T) := mul_nonneg (by positivity) (by linarith)
      linarith
    · intro h
      have : Real.exp (magnus c1 c2 D - magnus c1 c2 T) < 1 := by
        rw [Real.exp_lt_one_iff, this, div_lt_iff₀ (by positivity), zero_mul]
        have : 0 < c1 * c2 * (T - D) := mul_pos (by positivity) (by linarith)
        linarith
      linarith
  · have : magnus c1 c2 D - magnus c1 c2 T = c1 * c2 * (D - T) / ((c2 + D) * (c2 + T)) := by
      unfold magnus; field_simp; ring
    constructor
    · intro h
      have h' : Real.exp (magnus c1 c2 D - magnus c1 c2 T) = 1 := by linarith
      rw [Real.exp_eq_one_iff, this, div_eq_zero_iff] at h'
      rcases h' with h' | h'
      · have : D - T = 0 := by
          rcases mul_eq_zero.mp h' with h'' | h''
          · exact absurd h'' (mul_pos h1 h2).ne'
          · exact h''
        linarith
      · exact absurd h' (mul_pos hD hT).ne'
    · rintro rfl
      simp

/-- The default coefficients meet the hypotheses at room temperature. -/
example : (6.112 : ℝ) ≠ 0 ∧ (0 : ℝ) < 17.62 ∧ (0 : ℝ) < 243.12 ∧ (0 : ℝ) < 243.12 + 20 ∧ (0 : ℝ) < 243.12 + 12 := by
  norm_num

/-! ### C46: wind-speed power law -/

/-- **C46**: exactly one of `exponent` and `surface_type` must be given: otherwise ValueError; an unknown surface
type is a KeyError; every other call returns. -/
theorem windspeed_contract (w h1 h2 : Fl) (e : Option Fl) (s : Option String) :
    (windspeedPowerlaw w h1 h2 e s = .error .valueError ↔ (e.isSome ↔ s.isSome)) ∧
    (∀ k, windspeedPowerlaw w h1 h2 e s = .error (.keyError k) ↔
      e = none ∧ s = some k ∧ k ∉ hellmann.map Prod.fst) := by
  have hlook : ∀ k : String, hellmann.lookup k = none ↔ k ∉ hellmann.map Prod.fst := by
    intro k
    rw [List.lookup_eq_none_iff]
    simp only [List.mem_map, not_exists, not_and]
    constructor
    · intro h p hp hk
      have := h p hp
      simp [hk] at this
    · intro h p hp
      have := h p hp
      rw [bne_iff_ne]
      exact fun h' => this h'.symm
  cases e with
  | none =>
    cases s with
    | none => simp [windspeedPowerlaw]
    | some s =>
      simp only [windspeedPowerlaw]
      cases hl : hellmann.lookup s with
      | none =>
        have := (hlook s).mp hl
        simp only [reduceCtorEq, Option.isSome_none, Option.isSome_some, false_iff]
        refine ⟨by simp, fun k => ?_⟩
        simp only [Except.error.injEq, PyErr.keyError.injEq, true_and, Option.some.injEq]
        constructor
        · rintro rfl; exact ⟨rfl, this⟩
        · rintro ⟨h, _⟩; exact h
      | some e =>
        have : ¬ s ∉ hellmann.map Prod.fst := by
          rw [← hlook, hl]; simp
        refine ⟨by simp, fun k => ?_⟩
        simp only [reduceCtorEq, true_and, Option.some.injEq, false_iff, not_and]
        rintro rfl
        exact this
  | some e => cases s <;> simp [windspeedPowerlaw]

/-- **C46**: with a given exponent, positive heights and non-negative reference speed the result is
`w·(h2/h1)^e`. -/
theorem windspeed_value (w h1 h2 e : ℝ) (hw : 0 ≤ w) (hh1 : 0 < h1) (hh2 : 0 < h2) :
    windspeedPowerlaw (fin w) (fin h1) (fin h2) (some (fin e)) none = .ok (fin (w * (h2 / h1) ^ e)) := by
  have hp : 0 < h2 / h1 := by positivity
  have : ¬ (w * (h2 / h1) ^ e < 0) := not_lt.mpr (mul_nonneg hw (Real.rpow_pos_of_pos hp e).le)
  simp only [windspeedPowerlaw, fin_div hh1.ne', rpow_fin_pos hp, fin_mul, zero_eq, fin_lt]
  simp [npwhere, this]

example := windspeed_value 5 10 80 0.14 (by norm_num) (by norm_num) (by norm_num)

/-- **C46**: a named surface means its tabulated exponent. -/
theorem windspeed_surface (w h1 h2 : Fl) (s : String) (e : Fl) (h : hellmann.lookup s = some e) :
    windspeedPowerlaw w h1 h2 none (some s) = windspeedPowerlaw w h1 h2 (some e) none := by
  simp [windspeedPowerlaw, h]

example := windspeed_surface 5 10 80 "neutral_air_above_open_water_surface" 0.10 (by simp [hellmann, List.lookup])

/-- Terrains and stratifications of the table of Hellmann exponents. -/
inductive Terrain | water | coast | inhabited
inductive Stratification | unstable | neutral | stable

/-- Hellmann exponents in the literature (percent), Kaltschmitt et al., as cited by the code. -/
def literature : Stratification → Terrain → ℕ
  | .unstable, .water => 6 | .neutral, .water => 10 | .stable, .water => 27
  | .unstable, .coast => 11 | .neutral, .coast => 16 | .stable, .coast => 40
  | .unstable, .inhabited => 27 | .neutral, .inhabited => 34 | .stable, .inhabited => 60

/-- The table in the documentation of `windspeed_powerlaw`, pvlib/atmosphere.py:727-735 (percent). -/
def documentedExponent : Stratification → Terrain → ℕ
  | .unstable, .water => 6 | .neutral, .water => 11 | .stable, .water => 27
  | .unstable, .coast => 10 | .neutral, .coast => 16 | .stable, .coast => 34
  | .unstable, .inhabited => 27 | .neutral, .inhabited => 40 | .stable, .inhabited => 60

/-- The name of a surface type. -/
def surfaceName (a : Stratification) (t : Terrain) : String :=
  (match a with | .unstable => "unstable" | .neutral => "neutral" | .stable => "stable") ++ "_air_above_" ++
  (match t with | .water => "open_water_surface" | .coast => "flat_open_coast" | .inhabited => "human_inhabited_areas")

/-- **C46**: each of the nine surface types means the exponent of the literature. -/
theorem windspeed_surface_types (w h1 h2 : Fl) (a : Stratification) (t : Terrain) :
    windspeedPowerlaw w h1 h2 none (some (surfaceName a t)) =
      windspeedPowerlaw w h1 h2 (some (fin (literature a t / 100))) none := by
  apply windspeed_surface
  cases a <;> cases t <;> simp only [surfaceName] <;>
    simp [hellmann, List.lookup, literature, Fl.ofScientific_eq] <;> norm_num

/-- **C46**: there are no other surface types: every other name is a KeyError. -/
theorem windspeed_other_types (w h1 h2 : Fl) (k : String) :
    windspeedPowerlaw w h1 h2 none (some k) = .error (.keyError k) ↔ ∀ a t, k ≠ surfaceName a t := by
  rw [(windspeed_contract w h1 h2 none (some k)).2 k]
  constructor
  · rintro ⟨_, _, h⟩ a t rfl
    apply h
    cases a <;> cases t <;> simp [surfaceName, hellmann]
  · intro h
    refine ⟨rfl, rfl, fun hk => ?_⟩
    simp only [hellmann, List.map_cons, List.map_nil, List.mem_cons, List.not_mem_nil, or_false] at hk
    rcases hk with rfl | rfl | rfl | rfl | rfl | rfl | rfl | rfl | rfl
    · exact h .unstable .water rfl
    · exact h .neutral .water rfl
    · exact h .stable .water rfl
    · exact h .unstable .coast rfl
    · exact h .neutral .coast rfl
    · exact h .stable .coast rfl
    · exact h .unstable .inhabited rfl
    · exact h .neutral .inhabited rfl
    · exact h .stable .inhabited rfl

/-- **C46** (finding): in four of the nine cases that is not the exponent in the table of the function's own documentation. -/
theorem windspeed_documented_differs (a : Stratification) (t : Terrain) :
    literature a t ≠ documentedExponent a t ↔
      (a = .neutral ∧ t = .water) ∨ (a = .unstable ∧ t = .coast) ∨ (a = .stable ∧ t = .coast) ∨ (a = .neutral ∧ t = .inhabited) := by
  cases a <;> cases t <;> simp [literature, documentedExponent]

/-- **C46**: at the reference height the speed is unchanged; going through an intermediate height gives the same
result as going directly; more height means more wind for a positive exponent. -/
theorem windspeed_laws (w h1 h2 h3 e : ℝ) (hw : 0 ≤ w) (hh1 : 0 < h1) (hh2 : 0 < h2) (hh3 : 0 < h3) :
    windspeedPowerlaw (fin w) (fin h1) (fin h1) (some (fin e)) none = .ok (fin w) ∧
    (∃ v : ℝ, 0 ≤ v ∧ windspeedPowerlaw (fin w) (fin h1) (fin h2) (some (fin e)) none = .ok (fin v) ∧
      windspeedPowerlaw (fin v) (fin h2) (fin h3) (some (fin e)) none =
        windspeedPowerlaw (fin w) (fin h1) (fin h3) (some (fin e)) none ∧
      (0 < w → 0 < e → (w < v ↔ h1 < h2))) := by
  have hp : 0 < h2 / h1 := by positivity
  refine ⟨?_, w * (h2 / h1) ^ e, mul_nonneg hw (Real.rpow_pos_of_pos hp e).le,
    windspeed_value w h1 h2 e hw hh1 hh2, ?_, ?_⟩
  · rw [windspeed_value w h1 h1 e hw hh1 hh1, div_self hh1.ne', Real.one_rpow, mul_one]
  · rw [windspeed_value _ h2 h3 e (mul_nonneg hw (Real.rpow_pos_of_pos hp e).le) hh2 hh3,
      windspeed_value w h1 h3 e hw hh1 hh3, mul_assoc,
      ← Real.mul_rpow hp.le (by positivity : (0:ℝ) ≤ h3 / h2)]
    congr 4
    field_simp
  · intro hw' he
    rw [show (h1 < h2 ↔ 1 < h2 / h1) from by rw [lt_div_iff₀ hh1, one_mul]]
    constructor
    · intro h
      by_contra hc
      have : (h2 / h1) ^ e ≤ 1 := Real.rpow_le_one hp.le (not_lt.mp hc) he.le
      nlinarith
    · intro h
      have : 1 < (h2 / h1) ^ e := Real.one_lt_rpow h he
      nlinarith

example := windspeed_laws 5 10 30 80 0.14 (by norm_num) (by norm_num) (by norm_num) (by norm_num)

/-- **C46**: whatever the (numpy) inputs, the returned wind speed is never negative (it may be NaN or infinite). -/
theorem windspeed_not_neg (w h1 h2 : Fl) (e : Option Fl) (s : Option String) (v : Fl)
    (h : windspeedPowerlaw w h1 h2 e s = .ok v) : ¬ v < 0 := by
  have key : ∀ x : Fl, ¬ npwhere (x < 0) nan x < 0 := by
    intro x
    unfold npwhere
    split_ifs with hx
    · simp
    · exact hx
  unfold windspeedPowerlaw at h
  cases e with
  | none =>
    cases s with
    | none => simp at h
    | some s =>
      simp only at h
      cases hl : hellmann.lookup s with
      | none => simp [hl] at h
      | some e => simp only [hl, Except.ok.injEq] at h; rw [← h]; exact key _
  | some e =>
    cases s with
    | none => simp only [Except.ok.injEq] at h; rw [← h]; exact key _
    | some s => simp at h

example := windspeed_not_neg (fin 5) (fin 10) (fin 80) (some (fin 0.14)) none _
  (windspeed_value 5 10 80 0.14 (by norm_num) (by norm_num) (by norm_num))

/-! ### C47: Ångström turbidity -/

/-- **C47**: the exponent fitted through two (wavelength, AOD) measurements reproduces both measurements, in either
order of the arguments. -/
theorem angstrom_roundtrip (a1 l1 a2 l2 : ℝ) (ha1 : 0 < a1) (ha2 : 0 < a2) (hl1 : 0 < l1) (hl2 : 0 < l2)
    (hne : l1 ≠ l2) :
    angstromAod (fin a1) (fin l1) (angstromAlpha (fin a1) (fin l1) (fin a2) (fin l2)) (fin l2) = fin a2 ∧
    angstromAod (fin a2) (fin l2) (angstromAlpha (fin a1) (fin l1) (fin a2) (fin l2)) (fin l1) = fin a1 ∧
    angstromAlpha (fin a1) (fin l1) (fin a2) (fin l2) = angstromAlpha (fin a2) (fin l2) (fin a1) (fin l1) := by
  have hL : Real.log (l1 / l2) ≠ 0 := by
    rw [Real.log_div hl1.ne' hl2.ne']
    intro h
    exact hne (Real.log_injOn_pos hl1 hl2 (by linarith))
  have hL' : Real.log (l2 / l1) ≠ 0 := by
    rw [show l2 / l1 = (l1 / l2)⁻¹ by rw [inv_div], Real.log_inv]; simpa using hL
  have halpha : angstromAlpha (fin a1) (fin l1) (fin a2) (fin l2) =
      fin (-Real.log (a1 / a2) / Real.log (l1 / l2)) := by
    simp only [angstromAlpha, fin_div ha2.ne', fin_div hl2.ne', log_fin (div_pos ha1 ha2),
      log_fin (div_pos hl1 hl2), neg_fin, fin_div hL]
  have halpha' : angstromAlpha (fin a2) (fin l2) (fin a1) (fin l1) =
      fin (-Real.log (a2 / a1) / Real.log (l2 / l1)) := by
    simp only [angstromAlpha, fin_div ha1.ne', fin_div hl1.ne', log_fin (div_pos ha2 ha1),
      log_fin (div_pos hl2 hl1), neg_fin, fin_div hL']
  refine ⟨?_, ?_, ?_⟩
  · rw [halpha]
    simp only [angstromAod, fin_div hl1.ne', neg_fin, rpow_fin_pos (div_pos hl2 hl1), fin_mul, fin_inj]
    rw [Real.rpow_def_of_pos (div_pos hl2 hl1), show l2 / l1 = (l1 / l2)⁻¹ by rw [inv_div], Real.log_inv]
    rw [show -Real.log (l1 / l2) * -(-Real.log (a1 / a2) / Real.log (l1 / l2)) = -Real.log (a1 / a2) by
      field_simp]
    rw [Real.exp_neg, Real.exp_log (div_pos ha1 ha2)]
    field_simp
  · rw [halpha]
    simp only [angstromAod, fin_div hl2.ne', neg_fin, rpow_fin_pos (div_pos hl1 hl2), fin_mul, fin_inj]
    rw [Real.rpow_def_of_pos (div_pos hl1 hl2)]
    rw [show Real.log (l1 / l2) * -(-Real.log (a1 / a2) / Real.log (l1 / l2)) = Real.log (a1 / a2) by
      field_simp]
    rw [Real.exp_log (div_pos ha1 ha2)]
    field_simp
  · rw [halpha, halpha', show l2 / l1 = (l1 / l2)⁻¹ by rw [inv_div], Real.log_inv,
      show a2 / a1 = (a1 / a2)⁻¹ by rw [inv_div], Real.log_inv, neg_neg, div_neg, neg_div]

example := angstrom_roundtrip 0.1 380 0.05 870 (by norm_num) (by norm_num) (by norm_num) (by norm_num) (by norm_num)

/-- **C47**: extrapolating through an intermediate wavelength changes nothing, and recovers `alpha`. -/
theorem angstrom_compose (a l1 l2 l3 α : ℝ) (ha : 0 < a) (hl1 : 0 < l1) (hl2 : 0 < l2) (hl3 : 0 < l3) :
    angstromAod (angstromAod (fin a) (fin l1) (fin α) (fin l2)) (fin l2) (fin α) (fin l3) =
      angstromAod (fin a) (fin l1) (fin α) (fin l3) ∧
    (l1 ≠ l2 → angstromAlpha (fin a) (fin l1) (angstromAod (fin a) (fin l1) (fin α) (fin l2)) (fin l2) = fin α) := by
  have e : ∀ a' l l' : ℝ, 0 < l → 0 < l' →
      angstromAod (fin a') (fin l) (fin α) (fin l') = fin (a' * (l' / l) ^ (-α)) := by
    intro a' l l' hl hl'
    simp only [angstromAod, fin_div hl.ne', neg_fin, rpow_fin_pos (div_pos hl' hl), fin_mul]
  refine ⟨?_, ?_⟩
  · rw [e _ _ _ hl1 hl2, e _ _ _ hl2 hl3, e _ _ _ hl1 hl3, mul_assoc,
      ← Real.mul_rpow (by positivity) (by positivity)]
    congr 3
    field_simp
  · intro hne
    have hL : Real.log (l1 / l2) ≠ 0 := by
      rw [Real.log_div hl1.ne' hl2.ne']
      intro h
      exact hne (Real.log_injOn_pos hl1 hl2 (by linarith))
    have hq : 0 < (l2 / l1) ^ (-α) := Real.rpow_pos_of_pos (div_pos hl2 hl1) _
    rw [e _ _ _ hl1 hl2]
    simp only [angstromAlpha, fin_div (mul_pos ha hq).ne', fin_div hl2.ne',
      log_fin (div_pos ha (mul_pos ha hq)), log_fin (div_pos hl1 hl2), neg_fin, fin_div hL, fin_inj]
    rw [show a / (a * (l2 / l1) ^ (-α)) = ((l2 / l1) ^ (-α))⁻¹ by field_simp, Real.log_inv,
      Real.log_rpow (div_pos hl2 hl1), show l2 / l1 = (l1 / l2)⁻¹ by rw [inv_div], Real.log_inv]
    field_simp

example := angstrom_compose 0.1 380 500 870 1.14 (by norm_num) (by norm_num) (by norm_num) (by norm_num)

/-! ### C48: relative airmass -/

/-- The models `get_relative_airmass` documents. -/
def documented : List String :=
  ["simple", "kasten1966", "youngirvine1967", "kastenyoung1989", "gueymard1993", "young1994", "pickering2002",
   "gueymard2003"]

/-- **C48**: a model name is accepted exactly when it is one of the documented ones, in any letter case; otherwise
ValueError (whatever the zenith). -/
theorem airmass_accepts (model : String) (z : Fl) :
    (relativeAirmass z model = .error .valueError ↔ pyLower model ∉ documented) ∧
    (pyLower model ∈ documented → ∃ am, relativeAirmass z model = .ok am) := by
  unfold relativeAirmass airmassFormula documented
  constructor
  · constructor
    · intro h hmem
      simp only [List.mem_cons, List.not_mem_nil, or_false] at hmem
      rcases hmem with e | e | e | e | e | e | e | e <;> simp [e] at h
    · intro h
      simp only [List.mem_cons, List.not_mem_nil, or_false, not_or] at h
      simp [h]
  · intro hmem
    simp only [List.mem_cons, List.not_mem_nil, or_false] at hmem
    rcases hmem with e | e | e | e | e | e | e | e <;> simp [e]

/-- **C48**: below the horizon (zenith above 90) and for NaN zenith, every model returns NaN. -/
theorem airmass_night (model : String) (z : Fl) (hz : 90 < z ∨ z = nan) (am : Fl)
    (h : relativeAirmass z model = .ok am) : am = nan := by
  have hw : npwhere (90 < z) nan z = nan := by
    rcases hz with hz | rfl
    · exact npwhere_pos hz _ _
    · simp [npwhere]
  have hn : ∀ b : ℝ, b ≠ 0 → rpow nan (fin b) = nan := fun b hb => rpow_nan_left hb
  unfold relativeAirmass at h
  simp only [hw] at h
  by_cases hm : pyLower model ∈ documented
  · simp only [documented, List.mem_cons, List.not_mem_nil, or_false] at hm
    rcases hm with e | e | e | e | e | e | e | e <;>
      (simp [airmassFormula, e] at h; exact h.symm)
  · have := (airmass_accepts model nan).1.mpr hm
    unfold relativeAirmass at this
    simp only [npwhere, lt_nan, if_false] at this
    rw [this] at h
    simp at h

example : ∃ am, relativeAirmass (fin 100) "simple" = .ok am ∧ am = nan := by
  obtain ⟨am, h⟩ := (airmass_accepts "simple" (fin 100)).2 (by decide)
  exact ⟨am, h, airmass_night "simple" (fin 100) (Or.inl (by rw [Fl.ofNat_eq]; simp only [fin_lt]; norm_num)) am h⟩

private theorem wz (z : ℝ) (h1 : z ≤ 90) : npwhere (90 < fin z) nan (fin z) = fin z := by
  have : ¬ ((90 : ℝ) < z) := not_lt.mpr h1
  simp [npwhere, this]

private theorem cos_nonneg' (z : ℝ) (h0 : 0 ≤ z) (h1 : z ≤ 90) : 0 ≤ Real.cos (z * (π / 180)) := by
  have hpi := Real.pi_pos
  apply Real.cos_nonneg_of_mem_Icc
  constructor
  · have : 0 ≤ z * (π / 180) := by positivity
    linarith
  · have : z * (π / 180) ≤ 90 * (π / 180) := mul_le_mul_of_nonneg_right h1 (by positivity)
    linarith

private theorem cos_pos' (z : ℝ) (h0 : 0 ≤ z) (h1 : z < 90) : 0 < Real.cos (z * (π / 180)) := by
  have hpi := Real.pi_pos
  apply Real.cos_pos_of_mem_Ioo
  constructor
  · have : 0 ≤ z * (π / 180) := by positivity
    linarith
  · have : z * (π / 180) < 90 * (π / 180) := mul_lt_mul_of_pos_right h1 (by positivity)
    linarith

private theorem am_kasten1966 (z : ℝ) (h1 : z ≤ 90) (hc : 0 ≤ Real.cos (z * (π / 180))) :
    ∃ am : ℝ, 0 < am ∧ airmassFormula "kasten1966" (fin z) = some (fin am) := by
  have hb : (0 : ℝ) < 93.885 - z := by norm_num; linarith
  have hp : 0 < (93.885 - z) ^ (-1.253 : ℝ) := Real.rpow_pos_of_pos hb _
  have hd : 0 < Real.cos (z * (π / 180)) + 0.15 * (93.885 - z) ^ (-1.253 : ℝ) := by
    have : (0 : ℝ) < 0.15 * (93.885 - z) ^ (-1.253 : ℝ) := by positivity
    linarith
  refine ⟨1 / (Real.cos (z * (π / 180)) + 0.15 * (93.885 - z) ^ (-1.253 : ℝ)), by positivity, ?_⟩
  have e0 : airmassFormula "kasten1966" (fin z) =
      some (1 / (Fl.cos (radians (fin z)) + 0.15 * rpow (93.885 - fin z) (-1.253))) := rfl
  have e1 : (93.885 : Fl) - fin z = fin (93.885 - z) := by simp
  have e2 : (-1.253 : Fl) = fin (-1.253) := by simp
  rw [e0, e1, e2, rpow_fin_pos hb]
  simp only [radians_fin, cos_fin, ofScientific_eq, fin_mul, fin_add, one_eq]
  rw [fin_div hd.ne']

private theorem am_kastenyoung (z : ℝ) (h1 : z ≤ 90) (hc : 0 ≤ Real.cos (z * (π / 180))) :
    ∃ am : ℝ, 0 < am ∧ airmassFormula "kastenyoung1989" (fin z) = some (fin am) := by
  have hb : (0 : ℝ) < 6.07995 + (90 - z) := by norm_num; linarith
  have hp : 0 < (6.07995 + (90 - z)) ^ (-1.6364 : ℝ) := Real.rpow_pos_of_pos hb _
  have hd : 0 < Real.cos (z * (π / 180)) + 0.50572 * (6.07995 + (90 - z)) ^ (-1.6364 : ℝ) := by
    have : (0 : ℝ) < 0.50572 * (6.07995 + (90 - z)) ^ (-1.6364 : ℝ) := by positivity
    linarith
  refine ⟨1 / (Real.cos (z * (π / 180)) + 0.50572 * (6.07995 + (90 - z)) ^ (-1.6364 : ℝ)), by positivity, ?_⟩
  have e0 : airmassFormula "kastenyoung1989" (fin z) =
      some (1 / (Fl.cos (radians (fin z)) + 0.50572 * rpow (6.07995 + (90 - fin z)) (-1.6364))) := rfl
  have e1 : (6.07995 : Fl) + (90 - fin z) = fin (6.07995 + (90 - z)) := by simp
  have e2 : (-1.6364 : Fl) = fin (-1.6364) := by simp
  rw [e0, e1, e2, rpow_fin_pos hb]
  simp only [radians_fin, cos_fin, ofScientific_eq, fin_mul, fin_add, one_eq]
  rw [fin_div hd.ne']

private theorem am_gueymard1993 (z : ℝ) (h0 : 0 ≤ z) (h1 : z ≤ 90) (hc : 0 ≤ Real.cos (z * (π / 180))) :
    ∃ am : ℝ, 0 < am ∧ airmassFormula "gueymard1993" (fin z) = some (fin am) := by
  have hb : (0 : ℝ) < 94.37515 - z := by norm_num; linarith
  have hp : 0 < (94.37515 - z) ^ (-1.21563 : ℝ) := Real.rpow_pos_of_pos hb _
  have hd : 0 < Real.cos (z * (π / 180)) + 0.00176759 * z * (94.37515 - z) ^ (-1.21563 : ℝ) := by
    rcases h0.eq_or_lt with h | h
    · rw [← h]; simp
    · have : (0 : ℝ) < 0.00176759 * z * (94.37515 - z) ^ (-1.21563 : ℝ) := by positivity
      linarith
  refine ⟨1 / (Real.cos (z * (π / 180)) + 0.00176759 * z * (94.37515 - z) ^ (-1.21563 : ℝ)), by positivity, ?_⟩
  have e0 : airmassFormula "gueymard1993" (fin z) =
      some (1 / (Fl.cos (radians (fin z)) + 0.00176759 * fin z * rpow (94.37515 - fin z) (-1.21563))) := rfl
  have e1 : (94.37515 : Fl) - fin z = fin (94.37515 - z) := by simp
  have e2 : (-1.21563 : Fl) = fin (-1.21563) := by simp
  rw [e0, e1, e2, rpow_fin_pos hb]
  simp only [radians_fin, cos_fin, ofScientific_eq, fin_mul, fin_add, one_eq]
  rw [fin_div hd.ne']

private theorem am_young1994 (z : ℝ) (hc : 0 ≤ Real.cos (z * (π / 180))) :
    ∃ am : ℝ, 0 < am ∧ airmassFormula "young1994" (fin z) = some (fin am) := by
  set c := Real.cos (z * (π / 180)) with hcdef
  have hd : 0 < c ^ 3 + 0.149864 * c ^ 2 + 0.0102963 * c + 0.000303978 := by positivity
  refine ⟨(1.002432 * c ^ 2 + 0.148386 * c + 0.0096467) /
    (c ^ 3 + 0.149864 * c ^ 2 + 0.0102963 * c + 0.000303978), by positivity, ?_⟩
  have e0 : airmassFormula "young1994" (fin z) =
      some ((1.002432 * Fl.cos (radians (fin z)) ^ 2 + 0.148386 * Fl.cos (radians (fin z)) + 0.0096467) /
      (Fl.cos (radians (fin z)) ^ 3 + 0.149864 * Fl.cos (radians (fin z)) ^ 2 + 0.0102963 * Fl.cos (radians (fin z))
        + 0.000303978)) := rfl
  rw [e0]
  simp only [radians_fin, cos_fin, ofScientific_eq, fin_pow, fin_mul, fin_add]
  rw [← hcdef, fin_div hd.ne']

private theorem am_pickering (z : ℝ) (h0 : 0 ≤ z) (h1 : z ≤ 90) :
    ∃ am : ℝ, 0 < am ∧ airmassFormula "pickering2002" (fin z) = some (fin am) := by
  have hpi := Real.pi_pos
  have hb : (0 : ℝ) ≤ 90 - z := by linarith
  have hq : (0 : ℝ) ≤ (90 - z) ^ (1.1 : ℝ) := Real.rpow_nonneg hb _
  have hd : (0 : ℝ) < 165 + 47 * (90 - z) ^ (1.1 : ℝ) := by linarith
  have hs : 0 < Real.sin ((90 - z + 244 / (165 + 47 * (90 - z) ^ (1.1 : ℝ))) * (π / 180)) := by
    have hf : (0 : ℝ) < 244 / (165 + 47 * (90 - z) ^ (1.1 : ℝ)) := by positivity
    have hf' : 244 / (165 + 47 * (90 - z) ^ (1.1 : ℝ)) ≤ 2 := by
      rw [div_le_iff₀ hd]; linarith
    apply Real.sin_pos_of_pos_of_lt_pi
    · have : 0 < 90 - z + 244 / (165 + 47 * (90 - z) ^ (1.1 : ℝ)) := by linarith
      positivity
    · have : (90 - z + 244 / (165 + 47 * (90 - z) ^ (1.1 : ℝ))) * (π / 180) ≤ 92 * (π / 180) :=
        mul_le_mul_of_nonneg_right (by linarith) (by positivity)
      linarith
  refine ⟨1 / Real.sin ((90 - z + 244 / (165 + 47 * (90 - z) ^ (1.1 : ℝ))) * (π / 180)), by positivity, ?_⟩
  have e0 : airmassFormula "pickering2002" (fin z) =
      some (1 / Fl.sin (radians (90 - fin z + 244 / (165 + 47 * rpow (90 - fin z) 1.1)))) := rfl
  have e1 : rpow (90 - fin z) 1.1 = fin ((90 - z) ^ (1.1 : ℝ)) := by
    simp only [ofNat_eq, fin_sub, ofScientific_eq]
    exact rpow_fin_nonneg hb (by norm_num)
  have e2 : (244 : Fl) / (165 + 47 * fin ((90 - z) ^ (1.1 : ℝ))) = fin (244 / (165 + 47 * (90 - z) ^ (1.1 : ℝ))) := by
    simp only [ofNat_eq, fin_mul, fin_add]
    rw [fin_div hd.ne']
  rw [e0, e1, e2]
  simp only [ofNat_eq, fin_sub, fin_add, radians_fin, sin_fin, one_eq]
  rw [fin_div hs.ne']

private theorem am_gueymard2003 (z : ℝ) (h0 : 0 ≤ z) (h1 : z ≤ 90) (hc : 0 ≤ Real.cos (z * (π / 180))) :
    ∃ am : ℝ, 0 < am ∧ airmassFormula "gueymard2003" (fin z) = some (fin am) := by
  have hb : (0 : ℝ) < 96.741 - z := by norm_num; linarith
  have hp : 0 < (96.741 - z) ^ (1.754 : ℝ) := Real.rpow_pos_of_pos hb _
  have hz : 0 ≤ z ^ (0.095846 : ℝ) := Real.rpow_nonneg h0 _
  have hd : 0 < Real.cos (z * (π / 180)) + 0.48353 * z ^ (0.095846 : ℝ) / (96.741 - z) ^ (1.754 : ℝ) := by
    rcases h0.eq_or_lt with h | h
    · rw [← h, Real.zero_rpow (by norm_num)]; simp
    · have : 0 < z ^ (0.095846 : ℝ) := Real.rpow_pos_of_pos h _
      have : (0 : ℝ) < 0.48353 * z ^ (0.095846 : ℝ) / (96.741 - z) ^ (1.754 : ℝ) := by positivity
      linarith
  refine ⟨1 / (Real.cos (z * (π / 180)) + 0.48353 * z ^ (0.095846 : ℝ) / (96.741 - z) ^ (1.754 : ℝ)),
    by positivity, ?_⟩
  have e0 : airmassFormula "gueymard2003" (fin z) =
      some (1 / (Fl.cos (radians (fin z)) + 0.48353 * rpow (fin z) 0.095846 / rpow (96.741 - fin z) 1.754)) := rfl
  have e1 : (96.741 : Fl) - fin z = fin (96.741 - z) := by simp
  have e2 : rpow (fin z) 0.095846 = fin (z ^ (0.095846 : ℝ)) := by
    simp only [ofScientific_eq]
    exact rpow_fin_nonneg h0 (by norm_num)
  have e3 : (1.754 : Fl) = fin 1.754 := rfl
  rw [e0, e1, e2, e3, rpow_fin_pos hb]
  simp only [radians_fin, cos_fin, ofScientific_eq, fin_mul]
  rw [fin_div hp.ne', fin_add, one_eq, fin_div hd.ne']

/-- **C48**: with the sun at or above the horizon, these six models return a positive real number — including at
the horizon itself. -/
theorem airmass_positive (model : String) (z : ℝ) (h0 : 0 ≤ z) (h1 : z ≤ 90)
    (hm : pyLower model ∈ ["kasten1966", "kastenyoung1989", "gueymard1993", "young1994", "pickering2002",
      "gueymard2003"]) :
    ∃ am : ℝ, 0 < am ∧ relativeAirmass (fin z) model = .ok (fin am) := by
  have hpi := Real.pi_pos
  have hc := cos_nonneg' z h0 h1
  simp only [List.mem_cons, List.not_mem_nil, or_false] at hm
  unfold relativeAirmass
  rw [wz z h1]
  rcases hm with e | e | e | e | e | e <;> rw [e]
  · obtain ⟨am, h, h'⟩ := am_kasten1966 z h1 hc; exact ⟨am, h, by simp only [h']⟩
  · obtain ⟨am, h, h'⟩ := am_kastenyoung z h1 hc; exact ⟨am, h, by simp only [h']⟩
  · obtain ⟨am, h, h'⟩ := am_gueymard1993 z h0 h1 hc; exact ⟨am, h, by simp only [h']⟩
  · obtain ⟨am, h, h'⟩ := am_young1994 z hc; exact ⟨am, h, by simp only [h']⟩
  · obtain ⟨am, h, h'⟩ := am_pickering z h0 h1; exact ⟨am, h, by simp only [h']⟩
  · obtain ⟨am, h, h'⟩ := am_gueymard2003 z h0 h1 hc; exact ⟨am, h, by simp only [h']⟩

example := airmass_positive "KastenYoung1989" 75 (by norm_num) (by norm_num) (by decide)

/-- **C48**: the `simple` model is `sec z`: at least 1, equal to 1 exactly overhead, strictly increasing with zenith,
for the sun strictly above the horizon. -/
theorem airmass_simple (z z' : ℝ) (h0 : 0 ≤ z) (hlt : z < z') (h1 : z' < 90) :
    ∃ am am' : ℝ, relativeAirmass (fin z) "simple" = .ok (fin am) ∧
      relativeAirmass (fin z') "simple" = .ok (fin am') ∧ am = 1 / cosDeg z ∧ 1 ≤ am ∧ am < am' := by
  have hpi := Real.pi_pos
  have hv : ∀ w : ℝ, 0 ≤ w → w < 90 →
      relativeAirmass (fin w) "simple" = .ok (fin (1 / Real.cos (w * (π / 180)))) := by
    intro w hw0 hw1
    have hs : pyLower "simple" = "simple" := by decide
    unfold relativeAirmass
    rw [wz w hw1.le, hs]
    simp [airmassFormula, (cos_pos' w hw0 hw1).ne']
  have hc := cos_pos' z h0 (by linarith)
  have hc' := cos_pos' z' (by linarith) h1
  refine ⟨_, _, hv z h0 (by linarith), hv z' (by linarith) h1, rfl, ?_, ?_⟩
  · rw [le_div_iff₀ hc, one_mul]; exact Real.cos_le_one _
  · apply one_div_lt_one_div_of_lt hc'
    apply Real.cos_lt_cos_of_nonneg_of_le_pi_div_two
    · positivity
    · have : z' * (π / 180) ≤ 90 * (π / 180) := mul_le_mul_of_nonneg_right h1.le (by positivity)
      linarith
    · exact mul_lt_mul_of_pos_right hlt (by positivity)

example := airmass_simple 30 60 (by norm_num) (by norm_num) (by norm_num)

/-- **C48** (limit of the youngirvine1967 fit): its airmass is positive exactly while `sec² z < 1 + 1/0.0012`
(zenith below about 88°); closer to the horizon the code returns a negative number. -/
theorem airmass_youngirvine_sign (z : ℝ) (h0 : 0 ≤ z) (h1 : z < 90) :
    ∃ am : ℝ, relativeAirmass (fin z) "youngirvine1967" = .ok (fin am) ∧
      (0 < am ↔ (1 / cosDeg z) ^ 2 < 1 + 1 / 0.0012) := by
  have hc := cos_pos' z h0 h1
  have hs : pyLower "youngirvine1967" = "youngirvine1967" := by decide
  refine ⟨1 / Real.cos (z * (π / 180)) *
    (1 - 0.0012 * (1 / Real.cos (z * (π / 180)) * (1 / Real.cos (z * (π / 180))) - 1)), ?_, ?_⟩
  · unfold relativeAirmass
    rw [wz z h1.le, hs]
    simp [airmassFormula, hc.ne']
  · have hp : 0 < 1 / Real.cos (z * (π / 180)) := by positivity
    rw [mul_pos_iff_of_pos_left hp, sq]
    norm_num
    constructor <;> intro h <;> linarith

example := airmass_youngirvine_sign 60 (by norm_num) (by norm_num)

/-- **C48**: absolute airmass is relative airmass scaled by pressure: unchanged at standard pressure, and linear. -/
theorem absolute_airmass (am p : ℝ) :
    absoluteAirmass (fin am) = fin am ∧
    absoluteAirmass (fin am) (fin p) = fin (am * (p / 101325)) := by
  constructor
  · simp [absoluteAirmass]
  · simp only [absoluteAirmass, fin_mul, ofNat_eq]
    rw [fin_div (by norm_num : (101325:ℝ) ≠ 0), mul_div_assoc]

/-! ### C49: `Location.get_airmass` -/

/-- **C49**: `Location.get_airmass` evaluates the model on the zenith it is defined for — apparent zenith for the
apparent-zenith models, true zenith for the other two — and scales by the pressure at the site's altitude; any other
name is a ValueError.  (The names are matched exactly: unlike `get_relative_airmass`, case matters, and
`gueymard2003` is rejected.) -/
theorem location_get_airmass (altitude zenith apparent_zenith : Fl) (model : String) :
    (model ∈ ["simple", "kasten1966", "kastenyoung1989", "gueymard1993", "pickering2002"] →
      ∃ am, relativeAirmass apparent_zenith model = .ok am ∧
        Location.getAirmass altitude zenith apparent_zenith model =
          .ok (am, absoluteAirmass am (alt2pres altitude))) ∧
    (model ∈ ["youngirvine1967", "young1994"] →
      ∃ am, relativeAirmass zenith model = .ok am ∧
        Location.getAirmass altitude zenith apparent_zenith model =
          .ok (am, absoluteAirmass am (alt2pres altitude))) ∧
    (model ∉ ["simple", "kasten1966", "kastenyoung1989", "gueymard1993", "pickering2002", "youngirvine1967",
        "young1994"] →
      Location.getAirmass altitude zenith apparent_zenith model = .error .valueError) := by
  refine ⟨?_, ?_, ?_⟩
  · intro h
    have hd : pyLower model ∈ documented := by
      simp only [List.mem_cons, List.not_mem_nil, or_false] at h
      rcases h with rfl | rfl | rfl | rfl | rfl <;> decide
    obtain ⟨am, ham⟩ := (airmass_accepts model apparent_zenith).2 hd
    refine ⟨am, ham, ?_⟩
    have : model ∈ apparentZenithModels := h
    simp only [Location.getAirmass, this, if_true, ham]
    rfl
  · intro h
    have hd : pyLower model ∈ documented := by
      simp only [List.mem_cons, List.not_mem_nil, or_false] at h
      rcases h with rfl | rfl <;> decide
    have h2 : model ∉ apparentZenithModels := by
      simp only [List.mem_cons, List.not_mem_nil, or_false] at h
      rcases h with rfl | rfl <;> decide
    obtain ⟨am, ham⟩ := (airmass_accepts model zenith).2 hd
    refine ⟨am, ham, ?_⟩
    have : model ∈ trueZenithModels := h
    simp only [Location.getAirmass, h2, this, if_true, if_false, ham]
    rfl
  · intro h
    simp only [List.mem_cons, List.not_mem_nil, or_false, not_or] at h
    simp [Location.getAirmass, apparentZenithModels, trueZenithModels, h]

/-- The two front ends disagree on `gueymard2003`: `get_relative_airmass` accepts it, `Location.get_airmass`
does not. -/
theorem gueymard2003_rejected (altitude zenith apparent_zenith : Fl) :
    (∃ am, relativeAirmass zenith "gueymard2003" = .ok am) ∧
    Location.getAirmass altitude zenith apparent_zenith "gueymard2003" = .error .valueError :=
  ⟨(airmass_accepts _ _).2 (by decide), (location_get_airmass _ _ _ _).2.2 (by decide)⟩

/-! ### C50: pressure and altitude; precipitable water; Linke turbidity -/

/-- **C50**: pressure is positive and strictly decreases with altitude, at every altitude below the top of the
model atmosphere (44331.514 m). -/
theorem alt2pres_antitone (a b : ℝ) (hab : a < b) (hb : b < 44331.514) :
    ∃ p q : ℝ, alt2pres (fin a) = fin p ∧ alt2pres (fin b) = fin q ∧ 0 < q ∧ q < p := by
  have h11 : (11880.516 : ℝ) ≠ 0 := by norm_num
  have hv : ∀ x : ℝ, x < 44331.514 → alt2pres (fin x) =
      fin (100 * ((44331.514 - x) / 11880.516) ^ (1 / 0.1902632 : ℝ)) := by
    intro x hx
    have : (0 : ℝ) < (44331.514 - x) / 11880.516 := div_pos (by linarith) (by norm_num)
    simp only [alt2pres, ofScientific_eq, fin_sub, one_eq, ofNat_eq]
    rw [fin_div h11, fin_div (by norm_num : (0.1902632 : ℝ) ≠ 0), rpow_fin_pos this, fin_mul]
  have hpb : (0 : ℝ) < (44331.514 - b) / 11880.516 := div_pos (by linarith) (by norm_num)
  refine ⟨_, _, hv a (by linarith), hv b hb, by positivity, ?_⟩
  have : ((44331.514 - b) / 11880.516 : ℝ) < (44331.514 - a) / 11880.516 :=
    div_lt_div_of_pos_right (by linarith) (by norm_num)
  have := Real.rpow_lt_rpow hpb.le this (by norm_num : (0:ℝ) < 1 / 0.1902632)
  linarith

example := alt2pres_antitone 100 1830 (by norm_num) (by norm_num)

/-- **C50**: altitude strictly decreases with (non-negative) pressure. -/
theorem pres2alt_antitone (p q : ℝ) (hp : 0 ≤ p) (hpq : p < q) :
    ∃ a b : ℝ, pres2alt (fin p) = fin a ∧ pres2alt (fin q) = fin b ∧ b < a := by
  have hv : ∀ x : ℝ, 0 ≤ x → pres2alt (fin x) = fin (44331.5 - 4946.62 * x ^ (0.190263 : ℝ)) := by
    intro x hx
    simp only [pres2alt, ofScientific_eq]
    rw [rpow_fin_nonneg hx (by norm_num), fin_mul, fin_sub]
  refine ⟨_, _, hv p hp, hv q (by linarith), ?_⟩
  have := Real.rpow_lt_rpow hp hpq (by norm_num : (0:ℝ) < 0.190263)
  norm_num at this ⊢
  linarith

example := pres2alt_antitone 81000 101325 (by norm_num) (by norm_num)

/-- **C50**: precipitable water is never below 0.1 cm, and does not decrease with humidity (temperatures above
absolute zero). -/
theorem gueymard94_pw_laws (T r r' : ℝ) (hT : -273.15 < T) (hrr : r ≤ r') :
    ∃ w w' : ℝ, gueymard94Pw (fin T) (fin r) = fin w ∧ gueymard94Pw (fin T) (fin r') = fin w' ∧
      0.1 ≤ w ∧ w ≤ w' := by
  have hK : 0 < T + 273.15 := by linarith
  set K := T + 273.15 with hKdef
  have hK100 : (100 * K) ≠ 0 := by positivity
  have hv : ∀ x : ℝ, gueymard94Pw (fin T) (fin x) =
      fin (max (0.1 * (0.4976 + 1.5265 * (K / 273.15) + Real.exp (13.6897 * (K / 273.15) - 14.9188 * (K / 273.15) ^ 3))
        * (216.7 * x / (100 * K) * Real.exp (22.330 - 49.140 * (100 / K) - 10.922 * (100 / K) ^ 2
          - 0.39015 * K / 100))) 0.1) := by
    intro x
    simp only [gueymard94Pw, ofScientific_eq, fin_add]
    rw [← hKdef]
    rw [fin_div (by norm_num : (273.15 : ℝ) ≠ 0)]
    simp only [ofNat_eq, fin_mul, fin_div hK.ne', fin_div hK100, fin_pow, fin_sub,
      fin_div (by norm_num : (100 : ℝ) ≠ 0), exp_fin, fin_add, maximum_fin]
  refine ⟨_, _, hv r, hv r', le_max_right _ _, ?_⟩
  apply max_le_max_right
  gcongr

example := gueymard94_pw_laws 20 30 60 (by norm_num) (by norm_num)

/-- **C50**: despite the `log(exp(·))` in the code, the Linke turbidity is the plain product
`(9.4 + 0.9 am)(δ_cda + δ_w + aod)`, so it increases strictly with aerosol load and does not decrease with water. -/
theorem kasten96_laws (am pw pw' aod aod' : ℝ) (ham : 0 < am) (hpw : 0 ≤ pw) (hpp : pw ≤ pw') (ha : aod < aod') :
    kasten96Lt (fin am) (fin pw) (fin aod) =
      fin ((9.4 + 0.9 * am) * ((-0.101 + 0.235 * am ^ (-0.16 : ℝ)) +
        0.112 * am ^ (-0.55 : ℝ) * pw ^ (0.34 : ℝ) + aod)) ∧
    kasten96Lt (fin am) (fin pw) (fin aod) < kasten96Lt (fin am) (fin pw) (fin aod') ∧
    kasten96Lt (fin am) (fin pw) (fin aod) ≤ kasten96Lt (fin am) (fin pw') (fin aod) := by
  have hv : ∀ p a : ℝ, 0 ≤ p → kasten96Lt (fin am) (fin p) (fin a) =
      fin ((9.4 + 0.9 * am) * ((-0.101 + 0.235 * am ^ (-0.16 : ℝ)) +
        0.112 * am ^ (-0.55 : ℝ) * p ^ (0.34 : ℝ) + a)) := by
    intro p a hp
    have e1 : (-0.16 : Fl) = fin (-0.16) := by simp
    have e2 : (-0.55 : Fl) = fin (-0.55) := by simp
    simp only [kasten96Lt, e1, e2, rpow_fin_pos ham]
    simp only [ofScientific_eq, rpow_fin_nonneg hp (by norm_num : (0:ℝ) < 0.34), neg_fin, fin_mul, fin_add, exp_fin,
      log_fin (Real.exp_pos _), Real.log_exp, fin_div ham.ne', fin_inj]
    field_simp
  have hl : (0 : ℝ) < 9.4 + 0.9 * am := by positivity
  refine ⟨hv _ _ hpw, ?_, ?_⟩
  · rw [hv _ _ hpw, hv _ _ hpw, fin_lt]
    exact mul_lt_mul_of_pos_left (by linarith) hl
  · rw [hv _ _ hpw, hv _ _ (hpw.trans hpp), fin_le]
    gcongr

example := kasten96_laws 1.5 1 2 0.05 0.1 (by norm_num) (by norm_num) (by norm_num) (by norm_num)

example : (-273.15 : ℝ) < 20 ∧ (0 : ℝ) ≤ 40 ∧ (0:ℝ) < 1.5 := by norm_num

end Pvlib.Props.Atmosphere
end
