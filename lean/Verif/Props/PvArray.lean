import Verif.Model.PvArray
import Verif.Props.Spec

/-! # Properties C37 (array models) and C38 (inland-water albedo) -/

noncomputable section
open scoped Classical
namespace Pvlib.Props.PvArray
open Fl Pvlib.PvArray Pvlib.Tools Pvlib.Spec

/-! ### ADR -/

private theorem exp10_pos (x : ℝ) : (0 : ℝ) < (10 : ℝ) ^ x := Real.rpow_pos_of_pos (by norm_num) x

private theorem log_ref_pos (kd : ℝ) : 0 < Real.log (1 / (10 : ℝ) ^ kd + 1) := by
  apply Real.log_pos
  have := exp10_pos kd
  have : 0 < 1 / (10 : ℝ) ^ kd := by positivity
  linarith

/-- **C37**: at 1000 W/m² and 25 °C the ADR efficiency is `k_a`, for every parameter set. -/
theorem adr_stc (ka kd tcd krs krsh : ℝ) :
    pvefficiencyAdr (fin 1000) (fin 25) (fin ka) (fin kd) (fin tcd) (fin krs) (fin krsh) = fin ka := by
  have h1 := exp10_pos kd
  have h2 := log_ref_pos kd
  have h3 : 0 < 1 / (10 : ℝ) ^ kd + 1 := by positivity
  simp only [pvefficiencyAdr, ofNat_eq, fin_sub, fin_mul, fin_add, one_eq]
  rw [rpow_fin_pos (by norm_num), rpow_fin_pos (by norm_num), fin_div (by norm_num : (1000:ℝ) ≠ 0)]
  rw [show kd + (25 - 25) * tcd = kd by ring, show (1000 : ℝ) / 1000 = 1 by norm_num]
  rw [fin_div h1.ne', fin_add, log_fin h3, fin_div h2.ne', div_self h2.ne']
  simp only [fin_mul, fin_sub, fin_pow, fin_inj]
  ring

/-- **C37**: zero irradiance gives zero efficiency at every temperature. -/
theorem adr_dark (t ka kd tcd krs krsh : ℝ) :
    pvefficiencyAdr (fin 0) (fin t) (fin ka) (fin kd) (fin tcd) (fin krs) (fin krsh) = fin 0 := by
  have h1 := exp10_pos kd
  have h1' := exp10_pos (kd + (t - 25) * tcd)
  have h2 := log_ref_pos kd
  have h3 : 0 < 1 / (10 : ℝ) ^ kd + 1 := by positivity
  simp only [pvefficiencyAdr, ofNat_eq, fin_sub, fin_mul, fin_add, one_eq]
  rw [rpow_fin_pos (by norm_num), rpow_fin_pos (by norm_num), fin_div (by norm_num : (1000:ℝ) ≠ 0)]
  rw [fin_div h1.ne', fin_div h1'.ne', fin_add, fin_add, log_fin h3, log_fin (by norm_num), fin_div h2.ne']
  simp

/-- **C37**: the ADR efficiency is defined (finite) for every non-negative irradiance and every temperature. -/
theorem adr_finite (g t ka kd tcd krs krsh : ℝ) (hg : 0 ≤ g) :
    isfinite (pvefficiencyAdr (fin g) (fin t) (fin ka) (fin kd) (fin tcd) (fin krs) (fin krsh)) := by
  have h1 := exp10_pos kd
  have h1' := exp10_pos (kd + (t - 25) * tcd)
  have h2 := log_ref_pos kd
  have h3 : 0 < 1 / (10 : ℝ) ^ kd + 1 := by positivity
  have h4 : 0 < g / 1000 / (10 : ℝ) ^ (kd + (t - 25) * tcd) + 1 := by positivity
  simp only [pvefficiencyAdr, ofNat_eq, fin_sub, fin_mul, fin_add, one_eq]
  rw [rpow_fin_pos (by norm_num), rpow_fin_pos (by norm_num), fin_div (by norm_num : (1000:ℝ) ≠ 0)]
  rw [fin_div h1.ne', fin_div h1'.ne', fin_add, fin_add, log_fin h3, log_fin h4, fin_div h2.ne']
  simp

example := adr_finite 800 40 0.998 (-5.9) 0.02 0.05 0.1 (by norm_num)

/-! ### Huld -/

/-- Finite Huld coefficients. -/
def finK (a b c d e f : ℝ) : HuldK := ⟨fin a, fin b, fin c, fin d, fin e, fin f⟩

/-- **C37**: `huld` returns `pdc0` at 1000 W/m² and 25 °C, for every coefficient set. -/
theorem huld_stc (p a b c d e f : ℝ) :
    huld (fin 1000) (fin 25) (fin p) (some (finK a b c d e f)) = .ok (fin p) := by
  simp only [huld, huldPower, finK, logWhere, ofNat_eq]
  rw [fin_div (by norm_num), show (1000 : ℝ) / 1000 = 1 by norm_num]
  simp

/-- **C37**: `huld` returns zero power at zero irradiance. -/
theorem huld_dark (t p a b c d e f : ℝ) :
    huld (fin 0) (fin t) (fin p) (some (finK a b c d e f)) = .ok (fin 0) := by
  simp only [huld, huldPower, finK, logWhere, ofNat_eq]
  rw [fin_div (by norm_num)]
  simp

private def names : List String := ["csi", "cis", "cdte"]

private theorem get_table (kv ct : String) (p : ℝ) (hv : pyLower kv = "pvgis5" ∨ pyLower kv = "pvgis6")
    (hc : pyLower ct ∈ names) :
    ∃ a b c d e f : ℝ, ∀ p : ℝ, inferKHuld ct (fin p) kv =
      .ok (finK (a * p) (b * p) (c * p) (d * p) (e * p) (f * p)) := by
  have hne : "pvgis6" ≠ "pvgis5" := by decide
  have h1 : "cis" ≠ "csi" := by decide
  have h2 : "cdte" ≠ "csi" := by decide
  have h3 : "cdte" ≠ "cis" := by decide
  simp only [names, List.mem_cons, List.not_mem_nil, or_false] at hc
  rcases hv with hv | hv <;> rcases hc with hc | hc | hc <;>
    simp only [inferKHuld, hv, hc, huldPvgis5, huldPvgis6, PyDict.get?, HuldK.scale, if_true, if_neg hne,
      if_neg h1, if_neg h2, if_neg h3, if_neg h1.symm, if_neg h2.symm, if_neg h3.symm, ofScientific_eq, neg_fin, fin_mul,
      zero_eq, finK] <;>
    exact ⟨_, _, _, _, _, _, fun p => rfl⟩

/-- **C37**: for a named cell type (case-insensitive `cSi`, `CIS`, `CdTe`; `pvgis5`/`pvgis6`) the Huld power is
`pdc0` times a factor that does not depend on `pdc0`; the factor is 1 at reference conditions. -/
theorem huld_proportional (kv ct : String) (hv : pyLower kv = "pvgis5" ∨ pyLower kv = "pvgis6")
    (hc : pyLower ct = "csi" ∨ pyLower ct = "cis" ∨ pyLower ct = "cdte") (g t : ℝ) :
    ∃ r : ℝ, (∀ p : ℝ, huld (fin g) (fin t) (fin p) none (some ct) kv = .ok (fin (p * r))) ∧
      (g = 1000 → t = 25 → r = 1) := by
  obtain ⟨a, b, c, d, e, f, h⟩ := get_table kv ct 0 hv (by simpa [names] using hc)
  by_cases hg : 0 < g / 1000
  · set L := Real.log (g / 1000) with hL
    refine ⟨g / 1000 * (1 + a * L + b * L ^ 2 + c * (t - 25) + d * (t - 25) * L + e * (t - 25) * L ^ 2 +
      f * (t - 25) ^ 2), fun p => ?_, fun h1 h2 => ?_⟩
    · simp only [huld, h p, huldPower, finK, logWhere, ofNat_eq]
      rw [fin_div (by norm_num)]
      simp only [zero_eq, fin_lt, hg, if_true, log_fin hg, ← hL, fin_sub, fin_pow, fin_mul, fin_add,
        Except.ok.injEq, fin_inj]
      ring
    · subst h1 h2; simp [hL]
  · refine ⟨g / 1000 * (1 + c * (t - 25) + f * (t - 25) ^ 2), fun p => ?_, fun h1 h2 => ?_⟩
    · simp only [huld, h p, huldPower, finK, logWhere, ofNat_eq]
      rw [fin_div (by norm_num)]
      simp only [zero_eq, fin_lt, hg, if_false, fin_sub, fin_pow, fin_mul, fin_add,
        Except.ok.injEq, fin_inj]
      ring
    · subst h1; norm_num at hg

/-- **C37**: ValueError exactly when neither `k` nor `cell_type` is given, or `k` is not given and `k_version`
is not `pvgis5`/`pvgis6` in any capitalisation. -/
theorem huld_valueError_iff (g t p : Fl) (k : Option HuldK) (ct : Option String) (kv : String) :
    huld g t p k ct kv = .error .valueError ↔
      k = none ∧ (ct = none ∨ (pyLower kv ≠ "pvgis5" ∧ pyLower kv ≠ "pvgis6")) := by
  cases k with
  | some k => simp [huld]
  | none =>
    cases ct with
    | none => simp [huld]
    | some ct =>
      by_cases h5 : pyLower kv = "pvgis5"
      · simp only [huld, inferKHuld, h5, if_true]
        cases hg : huldPvgis5.get? (pyLower ct) <;> simp
      · by_cases h6 : pyLower kv = "pvgis6"
        · simp only [huld, inferKHuld, h6, if_true]
          cases hg : huldPvgis6.get? (pyLower ct) <;> simp
        · simp [huld, inferKHuld, h5, h6]

example : ∃ r : ℝ, ∀ p : ℝ, huld (fin 800) (fin 40) (fin p) none (some "cSi") "PVGIS6" = .ok (fin (p * r)) := by
  obtain ⟨r, h, -⟩ := huld_proportional "PVGIS6" "cSi" (by decide) (by decide) 800 40
  exact ⟨r, h⟩

/-! ### Batzelis -/

/-- Hypotheses on a datasheet: positive voltages and currents, and temperature coefficients for which the
model's auxiliary quantity δ0 is positive (any physical module: βVoc < 0 and αIsc·T0/Isc < 50.1). -/
structure Datasheet (v_mp i_mp v_oc i_sc alpha beta : ℝ) : Prop where
  vmp : 0 < v_mp
  imp : 0 < i_mp
  voc : 0 < v_oc
  isc : 0 < i_sc
  beta : beta / v_oc * 298.15 < 1
  alpha : alpha / i_sc * 298.15 < 50.1

/-- The model's δ0. -/
def del0 (v_oc i_sc alpha beta : ℝ) : ℝ := (1 - beta / v_oc * 298.15) / (50.1 - alpha / i_sc * 298.15)

private theorem batzelis_eval (W : Fl → Fl) (g t v_mp i_mp v_oc i_sc alpha beta w : ℝ)
    (hd : Datasheet v_mp i_mp v_oc i_sc alpha beta)
    (hW : W (fin (Real.exp (1 / del0 v_oc i_sc alpha beta + 1))) = fin w) (hw : w ≠ 1) :
    let δ := del0 v_oc i_sc alpha beta
    let lnG := if 0 < g / 1000 then Real.log (g / 1000) else -9e9
    let a := alpha / i_sc
    let b := beta / v_oc
    let dT := t - (298.15 - 273.15)
    let lamT := (t + 273.15) / 298.15
    let aimp := a + (b - 1 / 298.15) / (w - 1)
    let bvmp := (v_oc / v_mp) * (b / (1 + δ) + (δ * (w - 1) - 1 / (1 + δ)) / 298.15)
    let e0 := (δ / (1 + δ)) * (v_oc / v_mp)
    let e1 := δ * (w - 1) * (v_oc / v_mp) - 1
    let vmp := max (v_mp * (1 + e0 * lamT * lnG + e1 * (1 - g / 1000) + bvmp * dT)) 0
    let voc := max (v_oc * (1 + δ * lamT * lnG + b * dT)) 0
    let imp := g / 1000 * i_mp * (1 + aimp * dT)
    let isc := g / 1000 * i_sc * (1 + a * dT)
    0 < δ ∧ batzelis W (fin g) (fin t) (fin v_mp) (fin i_mp) (fin v_oc) (fin i_sc) (fin alpha) (fin beta) =
      ⟨fin (vmp * imp), fin imp, fin vmp, fin isc, fin voc⟩ := by
  have h1 : 0 < 1 - beta / v_oc * 298.15 := by linarith [hd.beta]
  have h2 : 0 < 50.1 - alpha / i_sc * 298.15 := by linarith [hd.alpha]
  have hδ : 0 < del0 v_oc i_sc alpha beta := div_pos h1 h2
  have hvmp := hd.vmp.ne'
  have hvoc := hd.voc.ne'
  have hisc := hd.isc.ne'
  have hw' : w - 1 ≠ 0 := sub_ne_zero.mpr hw
  have hδ1 : 1 + del0 v_oc i_sc alpha beta ≠ 0 := by linarith
  have ht0 : (298.15 : ℝ) ≠ 0 := by norm_num
  have hk : (1000 : ℝ) ≠ 0 := by norm_num
  have eδ : (fin 1 - fin (beta / v_oc) * fin 298.15) / (fin 50.1 - fin (alpha / i_sc) * fin 298.15) =
      fin (del0 v_oc i_sc alpha beta) := by
    simp only [fin_mul, fin_sub]; rw [fin_div h2.ne']; rfl
  have eL : npwhere (isfinite (fin (g / 1000))) (logWhere (fin (g / 1000)) (fin (-9e9))) nan =
      fin (if 0 < g / 1000 then Real.log (g / 1000) else -9e9) := by
    simp only [npwhere, isfinite_fin, if_true, logWhere, zero_eq, fin_lt]
    by_cases hg : 0 < g / 1000
    · simp only [hg, if_true]; exact log_fin hg
    · simp only [hg, if_false]
  refine ⟨hδ, ?_⟩
  simp only [batzelis, ofScientific_eq, ofNat_eq, one_eq, neg_fin, zero_eq]
  rw [fin_div hisc, fin_div hvoc, eδ, fin_div hδ.ne', fin_div hvmp, fin_div hk, eL]
  simp only [fin_sub, fin_add, fin_mul, exp_fin]
  rw [hW]
  rw [fin_div ht0, fin_div ht0, fin_div hδ1, fin_div hδ1, fin_div hδ1]
  simp only [fin_sub, fin_add, fin_mul]
  rw [fin_div hw', fin_div ht0]
  simp only [fin_sub, fin_add, fin_mul, maximum_fin]

/-- **C37**: `batzelis` returns the datasheet values at 1000 W/m² and 25 °C, whatever value ≠ 1 the Lambert-W
evaluation returns. -/
theorem batzelis_stc (W : Fl → Fl) (v_mp i_mp v_oc i_sc alpha beta w : ℝ)
    (hd : Datasheet v_mp i_mp v_oc i_sc alpha beta)
    (hW : W (fin (Real.exp (1 / del0 v_oc i_sc alpha beta + 1))) = fin w) (hw : w ≠ 1) :
    batzelis W (fin 1000) (fin 25) (fin v_mp) (fin i_mp) (fin v_oc) (fin i_sc) (fin alpha) (fin beta) =
      ⟨fin (v_mp * i_mp), fin i_mp, fin v_mp, fin i_sc, fin v_oc⟩ := by
  have h := (batzelis_eval W 1000 25 v_mp i_mp v_oc i_sc alpha beta w hd hW hw).2
  rw [h]
  have e1 : (1000 : ℝ) / 1000 = 1 := by norm_num
  have e2 : (25 : ℝ) - (298.15 - 273.15) = 0 := by norm_num
  simp only [e1, e2]
  have := hd.vmp.le
  have := hd.voc.le
  simp [*]

example := batzelis_stc (fun _ => fin 20) 31 8 37 8.5 0.005 (-0.12) 20 (by constructor <;> norm_num) rfl (by norm_num)

/-- **C37**: at zero irradiance currents and power are exactly 0; and both voltages are 0 whenever the
temperature terms are within a (huge) 9·10⁹ δ0·λ margin, `λ = (t + 273.15)/298.15`. -/
theorem batzelis_dark (W : Fl → Fl) (t v_mp i_mp v_oc i_sc alpha beta w : ℝ)
    (hd : Datasheet v_mp i_mp v_oc i_sc alpha beta)
    (hW : W (fin (Real.exp (1 / del0 v_oc i_sc alpha beta + 1))) = fin w) (hw : w ≠ 1) :
    ∃ vmp voc : ℝ,
      batzelis W (fin 0) (fin t) (fin v_mp) (fin i_mp) (fin v_oc) (fin i_sc) (fin alpha) (fin beta) =
        ⟨fin 0, fin 0, fin vmp, fin 0, fin voc⟩ ∧
      (1 + beta / v_oc * (t - 25) ≤ 9e9 * del0 v_oc i_sc alpha beta * ((t + 273.15) / 298.15) → voc = 0) := by
  have h := (batzelis_eval W 0 t v_mp i_mp v_oc i_sc alpha beta w hd hW hw).2
  simp only [zero_div, zero_mul, mul_zero, lt_irrefl, if_false] at h
  refine ⟨_, _, h, ?_⟩
  · intro hm
    apply max_eq_right
    apply mul_nonpos_of_nonneg_of_nonpos hd.voc.le
    have e2 : (298.15 : ℝ) - 273.15 = 25 := by norm_num
    rw [e2]
    nlinarith

example := batzelis_dark (fun _ => fin 20) 10 31 8 37 8.5 0.005 (-0.12) 20 (by constructor <;> norm_num) rfl (by norm_num)

/-- **C37**: power is `v_mp * i_mp`, and neither voltage is ever negative — for all inputs whatsoever. -/
theorem batzelis_power (W : Fl → Fl) (g t v_mp i_mp v_oc i_sc alpha beta : Fl) :
    let r := batzelis W g t v_mp i_mp v_oc i_sc alpha beta
    r.p_mp = r.v_mp * r.i_mp ∧ ¬ r.v_mp < 0 ∧ ¬ r.v_oc < 0 := by
  have key : ∀ x : Fl, ¬ maximum x 0 < 0 := by
    intro x; cases x <;> simp
  exact ⟨rfl, key _, key _⟩

/-- **C37**: a NaN irradiance gives NaN everywhere. -/
theorem batzelis_nan (W : Fl → Fl) (t v_mp i_mp v_oc i_sc alpha beta : Fl) :
    batzelis W nan t v_mp i_mp v_oc i_sc alpha beta = ⟨nan, nan, nan, nan, nan⟩ := by
  simp [batzelis, logWhere, npwhere]

example : Datasheet 31 8 37 8.5 0.005 (-0.12) := by
  constructor <;> norm_num

/-! ### C38: inland-water albedo -/

open Pvlib.Albedo

/-- **C38** (contract): ValueError exactly unless either only `surface_condition`, or only both coefficients,
are given. -/
theorem dvoracek_valueError_iff (e : Fl) (sc : Option String) (c w : Option Fl) :
    inlandWaterDvoracek e sc c w = .error .valueError ↔
      ¬ ((sc.isSome ∧ c = none ∧ w = none) ∨ (sc = none ∧ c.isSome ∧ w.isSome)) := by
  cases sc with
  | none => cases c <;> cases w <;> simp [inlandWaterDvoracek]
  | some s =>
    cases c <;> cases w <;> simp [inlandWaterDvoracek]
    cases waterColor.get? s <;> simp
    cases waterRoughness.get? s <;> simp

/-- **C38** (range): for a colour coefficient in (0, 1) and a non-negative roughness, for every solar elevation
up to 180°, the albedo is in (0, colour], and equals the colour coefficient for any sun at or below the
horizon. -/
theorem dvoracek_range (e c w : ℝ) (hc : 0 < c) (hc1 : c < 1) (hw : 0 ≤ w) (he : e ≤ 180) :
    ∃ a : ℝ, inlandWaterDvoracek (fin e) none (some (fin c)) (some (fin w)) = .ok (fin a) ∧
      0 < a ∧ a ≤ c ∧ (e ≤ 0 → a = c) := by
  have hpi := Real.pi_pos
  by_cases h : e < 0
  · refine ⟨c, ?_, hc, le_rfl, fun _ => rfl⟩
    simp [inlandWaterDvoracek, dvoracekFormula, npwhere, h, rpow_fin_pos hc]
  · push Not at h
    have hs : 0 ≤ sinDeg e := by
      apply Real.sin_nonneg_of_nonneg_of_le_pi
      · positivity
      · nlinarith
    refine ⟨c ^ (w * sinDeg e + 1), ?_, Real.rpow_pos_of_pos hc _, ?_, ?_⟩
    · simp [inlandWaterDvoracek, dvoracekFormula, npwhere, not_lt.mpr h, rpow_fin_pos hc]
    · calc c ^ (w * sinDeg e + 1) ≤ c ^ (1 : ℝ) :=
          Real.rpow_le_rpow_of_exponent_ge hc hc1.le (by nlinarith)
        _ = c := Real.rpow_one c
    · intro h0
      have : e = 0 := le_antisymm h0 h
      subst this
      rw [sinDeg, zero_mul, Real.sin_zero, mul_zero, zero_add, Real.rpow_one]

example := dvoracek_range 30 0.13 0.29 (by norm_num) (by norm_num) (by norm_num) (by norm_num)

private theorem get_none {α : Type} (d : PyDict α) (k : String) (h : ∀ p ∈ d, p.1 ≠ k) : d.get? k = none := by
  induction d with
  | nil => rfl
  | cons p d ih =>
    obtain ⟨k', v⟩ := p
    have h1 : k' ≠ k := h (k', v) (by simp)
    simp only [PyDict.get?, if_neg h1]
    exact ih fun p hp => h p (by simp [hp])

/-- **C38**: a higher sun (up to the zenith) never gives a higher albedo. -/
theorem dvoracek_antitone (e e' c w a a' : ℝ) (hc : 0 < c) (hc1 : c < 1) (hw : 0 ≤ w) (h : e ≤ e') (he : e' ≤ 90)
    (ha : inlandWaterDvoracek (fin e) none (some (fin c)) (some (fin w)) = .ok (fin a))
    (ha' : inlandWaterDvoracek (fin e') none (some (fin c)) (some (fin w)) = .ok (fin a')) : a' ≤ a := by
  have hpi := Real.pi_pos
  by_cases h0 : e ≤ 0
  · obtain ⟨b, hb, -, -, hb2⟩ := dvoracek_range e c w hc hc1 hw (by linarith)
    obtain ⟨b', hb', -, hb3, -⟩ := dvoracek_range e' c w hc hc1 hw (by linarith)
    rw [ha] at hb; rw [ha'] at hb'
    simp only [Except.ok.injEq, fin_inj] at hb hb'
    rw [hb, hb', hb2 h0]; exact hb3
  · push Not at h0
    have e1 : a = c ^ (w * sinDeg e + 1) := by
      simp [inlandWaterDvoracek, dvoracekFormula, npwhere, not_lt.mpr h0.le, rpow_fin_pos hc] at ha
      exact ha.symm
    have e2 : a' = c ^ (w * sinDeg e' + 1) := by
      simp [inlandWaterDvoracek, dvoracekFormula, npwhere, not_lt.mpr (h0.le.trans h), rpow_fin_pos hc] at ha'
      exact ha'.symm
    rw [e1, e2]
    apply Real.rpow_le_rpow_of_exponent_ge hc hc1.le
    have : sinDeg e ≤ sinDeg e' := by
      apply Real.sin_le_sin_of_le_of_le_pi_div_two
      · nlinarith
      · nlinarith
      · nlinarith
    nlinarith

example : ∃ a a' : ℝ, inlandWaterDvoracek (fin 20) none (some (fin 0.13)) (some (fin 0.29)) = .ok (fin a) ∧
    inlandWaterDvoracek (fin 60) none (some (fin 0.13)) (some (fin 0.29)) = .ok (fin a') ∧ a' ≤ a := by
  obtain ⟨a, ha, -⟩ := dvoracek_range 20 0.13 0.29 (by norm_num) (by norm_num) (by norm_num) (by norm_num)
  obtain ⟨a', ha', -⟩ := dvoracek_range 60 0.13 0.29 (by norm_num) (by norm_num) (by norm_num) (by norm_num)
  exact ⟨a, a', ha, ha', dvoracek_antitone 20 60 0.13 0.29 a a' (by norm_num) (by norm_num) (by norm_num) (by norm_num)
    (by norm_num) ha ha'⟩

/-- **C38**: the named surface conditions are exactly these six, each with an albedo in (0, 0.3]. -/
theorem dvoracek_named (e : ℝ) (he : e ≤ 180) (s : String) :
    (s ∈ ["clear_water_no_waves", "clear_water_ripples_up_to_2.5cm",
        "clear_water_ripples_larger_than_2.5cm_occasional_whitecaps", "clear_water_frequent_whitecaps",
        "green_water_ripples_up_to_2.5cm", "muddy_water_no_waves"] →
      ∃ a : ℝ, inlandWaterDvoracek (fin e) (some s) = .ok (fin a) ∧ 0 < a ∧ a ≤ 0.3) ∧
    (s ∉ ["clear_water_no_waves", "clear_water_ripples_up_to_2.5cm",
        "clear_water_ripples_larger_than_2.5cm_occasional_whitecaps", "clear_water_frequent_whitecaps",
        "green_water_ripples_up_to_2.5cm", "muddy_water_no_waves"] →
      inlandWaterDvoracek (fin e) (some s) = .error (.keyError s)) := by
  have key : ∀ c w : ℝ, 0 < c → c ≤ 0.3 → 0 ≤ w → ∃ a : ℝ, dvoracekFormula (fin e) (fin c) (fin w) = fin a ∧ 0 < a ∧ a ≤ 0.3 := by
    intro c w h1 h2 h3
    obtain ⟨a, h4, h5, h6, -⟩ := dvoracek_range e c w h1 (by norm_num at h2; linarith) h3 he
    simp only [inlandWaterDvoracek, Except.ok.injEq] at h4
    exact ⟨a, h4, h5, h6.trans h2⟩
  constructor
  · intro hs
    simp only [List.mem_cons, List.not_mem_nil, or_false] at hs
    have go : ∀ c w : ℝ, waterColor.get? s = some (fin c) → waterRoughness.get? s = some (fin w) → 0 < c → c ≤ 0.3 →
        0 ≤ w → ∃ a : ℝ, inlandWaterDvoracek (fin e) (some s) = .ok (fin a) ∧ 0 < a ∧ a ≤ 0.3 := by
      intro c w h1 h2 h3 h4 h5
      obtain ⟨a, ha, ha'⟩ := key c w h3 h4 h5
      exact ⟨a, by simp only [inlandWaterDvoracek, h1, h2, ha], ha'⟩
    rcases hs with rfl | rfl | rfl | rfl | rfl | rfl
    · exact go 0.13 0.29 rfl rfl (by norm_num) (by norm_num) (by norm_num)
    · exact go 0.16 0.7 rfl rfl (by norm_num) (by norm_num) (by norm_num)
    · exact go 0.23 1.25 rfl rfl (by norm_num) (by norm_num) (by norm_num)
    · exact go 0.3 2 rfl rfl (by norm_num) (by norm_num) (by norm_num)
    · exact go 0.22 0.7 rfl rfl (by norm_num) (by norm_num) (by norm_num)
    · exact go 0.19 0.29 rfl rfl (by norm_num) (by norm_num) (by norm_num)
  · intro hs
    have : waterColor.get? s = none := by
      apply get_none
      intro p hp
      have hk : p.1 ∈ waterColor.map Prod.fst := List.mem_map_of_mem hp
      intro he
      rw [he] at hk
      exact hs hk
    simp only [inlandWaterDvoracek, this]

example := (dvoracek_named 30 (by norm_num) "muddy_water_no_waves").1 (by decide)
example := (dvoracek_named 30 (by norm_num) "lava").2 (by decide)

end Pvlib.Props.PvArray
end
