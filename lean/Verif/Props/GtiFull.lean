import Verif.Props.TrigValues
import Verif.Model.Reverse
import Verif.Props.GtiDirint
import Verif.Props.Decomposition
import Verif.Props.Transposition

/-! # C138 DIRINDEX, C139 GTI-DIRINT as a whole -/

noncomputable section
open scoped Classical
open Real
namespace Pvlib.Props.GtiFull
open Fl Pvlib.Irradiance Pvlib.Tools Pvlib.Spec Pvlib.Props.Decomposition Pvlib.Props.GtiDirint
open Pvlib.Props.Transposition

/-! ## C138 -/

/-- **C138** DIRINDEX is never negative, for any input. -/
theorem dirindex_not_neg (n : ℕ) (g gc dc z doy : Series) (p : Option Fl) (use : Bool) (dew : Option Series) (mc mz : Fl)
    (i : ℕ) : ¬ dirindex n g gc dc z doy p use dew mc mz i < 0 := by
  simp only [dirindex]
  split_ifs with h
  · simp
  · exact h

/-- **C138** DIRINDEX scales the clear-sky DNI by the ratio of the two DIRINT estimates: wherever those are real, the
clear one not zero, and the clear-sky DNI is real. -/
theorem dirindex_value (n : ℕ) (g gc dc z doy : Series) (p : Option Fl) (use : Bool) (dew : Option Series) (mc mz : Fl)
    (i : ℕ) (c d e : ℝ) (hc : dc i = fin c) (hd : dirint n g z doy p use dew mc mz i = fin d)
    (he : dirint n gc z doy p use dew mc mz i = fin e) (he0 : e ≠ 0) :
    dirindex n g gc dc z doy p use dew mc mz i = fin (max (c * (d / e)) 0) := by
  simp only [dirindex, hc, hd, he, fin_mul, fin_div he0, zero_eq, fin_lt]
  split_ifs with h
  · rw [max_eq_right]; rw [← mul_div_assoc]; exact h.le
  · rw [max_eq_left]
    · rw [← mul_div_assoc]
    · rw [← mul_div_assoc]; exact not_lt.mp h

/-- At noon on 1 January with the sun overhead and 700 W/m² DISC finds a beam. -/
theorem demo_disc : (disc (fin 700) (fin 0) (fin 1) (some (fin 101325)) (fin 0.065) (fin 87)).dni ≠ fin 0 := by
  have hE : extraSpencer (fin 1) 1370 = fin (1370 * 1.03505) := by
    simp only [extraSpencer, simpleDayAngle, Fl.ofNat_eq, Fl.ofScientific_eq, one_eq]
    simp
    norm_num
  obtain ⟨am, ham, hk⟩ : ∃ am : ℝ, (0.99 ≤ am ∧ am ≤ 1) ∧ Atmosphere.kasten1966 (fin 0) = fin am := by
    have h1 : ((93.885 : ℝ)) ^ (-1.253 : ℝ) ≤ (93.885 : ℝ) ^ (-1 : ℝ) := Real.rpow_le_rpow_of_exponent_le (by norm_num) (by norm_num)
    have h2 : (0:ℝ) < (93.885 : ℝ) ^ (-1.253 : ℝ) := by positivity
    rw [Real.rpow_neg_one] at h1
    have h3 : ((93.885 : ℝ)) ^ (-1.253 : ℝ) ≤ 0.02 := le_trans h1 (by norm_num)
    refine ⟨1 / (1 + 0.15 * (93.885 : ℝ) ^ (-1.253 : ℝ)), ⟨?_, ?_⟩, ?_⟩
    · rw [le_div_iff₀ (by positivity)]; nlinarith
    · rw [div_le_one (by positivity)]; nlinarith
    · simp only [Atmosphere.kasten1966, Fl.ofNat_eq, Fl.ofScientific_eq, one_eq]
      rw [npwhere_neg (by simp only [fin_lt]; norm_num)]
      simp [radians]
      rw [rpow_fin_pos (by norm_num)]
      simp
      rw [fin_div (by positivity)]
      norm_num
  have hv := clearnessIndex_value 700 0 (1370 * 1.03505) 0.065 1 (by norm_num) (by norm_num)
  obtain ⟨k, hkt, hk0, hk1⟩ : ∃ k : ℝ, clearnessIndex (fin 700) (fin 0) (fin (1370 * 1.03505)) (fin 0.065) 1 = fin k ∧
      0.4936 < k ∧ k < 0.4937 := by
    refine ⟨_, hv, ?_, ?_⟩
    · simp only [cosDeg, zero_mul, Real.cos_zero]; norm_num
    · simp only [cosDeg, zero_mul, Real.cos_zero]; norm_num
  obtain ⟨Kn, hKn, hKn0⟩ : ∃ Kn : ℝ, (discKn (fin k) (fin am)).1 = fin Kn ∧ 0 < Kn := by
    have hmin : minimum (fin am) 12 = fin am := by
      rw [Fl.ofNat_eq, minimum_fin, min_eq_left (by linarith [ham.2])]
    have hcl : (fin k : Fl) ≤ 0.6 := by rw [Fl.ofScientific_eq, fin_le]; norm_num; linarith
    refine ⟨0.866 + am * (-0.122 + am * (0.0121 + am * (-0.000653 + 1.4e-05 * am))) -
        (0.512 + k * (-1.56 + k * (2.286 - 2.222 * k)) +
          (0.37 + 0.962 * k) * Real.exp ((-0.28 + k * (0.932 - 2.048 * k)) * am)), ?_, ?_⟩
    · simp only [discKn, hmin]
      rw [npwhere_pos hcl, npwhere_pos hcl, npwhere_pos hcl]
      simp only [Fl.ofScientific_eq, neg_fin, fin_add, fin_sub, fin_mul, exp_fin]
    have hc : (-0.28 + k * (0.932 - 2.048 * k)) * am ≤ -0.28 := by
      have : -0.28 + k * (0.932 - 2.048 * k) ≤ -0.31 := by nlinarith
      nlinarith [ham.1, ham.2]
    have he : Real.exp ((-0.28 + k * (0.932 - 2.048 * k)) * am) ≤ 1 / 1.28 := by
      refine le_trans (Real.exp_le_exp.mpr hc) ?_
      rw [Real.exp_neg, ← one_div]
      exact one_div_le_one_div_of_le (by norm_num) (by linarith [Real.add_one_le_exp (0.28:ℝ)])
    have hb : (0.37 + 0.962 * k) * Real.exp ((-0.28 + k * (0.932 - 2.048 * k)) * am) ≤ 0.845 * (1 / 1.28) := by
      apply mul_le_mul (by linarith) he (Real.exp_pos _).le (by norm_num)
    have ha : 0.512 + k * (-1.56 + k * (2.286 - 2.222 * k)) ≤ 0.035 := by
      nlinarith [mul_pos (sub_pos.mpr hk0) (sub_pos.mpr hk1), sq_nonneg k]
    have hn : 0.75 ≤ 0.866 + am * (-0.122 + am * (0.0121 + am * (-0.000653 + 1.4e-05 * am))) := by
      have h3 : (0.0121 + am * (-0.000653 + 1.4e-05 * am)) ≥ 0.011 := by nlinarith [ham.1, ham.2]
      have h4 : 0.01 ≤ am * (0.0121 + am * (-0.000653 + 1.4e-05 * am)) := by nlinarith [ham.1, ham.2]
      have h5 : -0.113 ≤ am * (-0.122 + am * (0.0121 + am * (-0.000653 + 1.4e-05 * am))) := by nlinarith [ham.1, ham.2]
      linarith
    norm_num at ha hb hn ⊢
    linarith
  have habs : Atmosphere.absoluteAirmass (fin am) (fin 101325) = fin am := by
    simp [Atmosphere.absoluteAirmass]
  intro hcon
  simp only [disc, hE, hk, hkt, habs, hKn] at hcon
  rw [npwhere_neg] at hcon
  · simp only [fin_mul, fin_inj] at hcon
    exact absurd hcon (by positivity)
  · simp only [fin_mul, zero_eq, fin_lt]
    push Not
    exact ⟨by norm_num, by norm_num, by positivity⟩

example := dirindex_value 1 (fun _ => fin 700) (fun _ => fin 700) (fun _ => fin 900) (fun _ => fin 0) (fun _ => fin 1)
  (some (fin 101325)) false none (fin 0.065) (fin 87) 0 900

/-- **C138** (clear sky) when the measured GHI is the clear-sky GHI, DIRINDEX returns the clear-sky DNI, on every
daytime row (with a daytime neighbour) where DISC sees any beam. -/
theorem dirindex_clear (n : ℕ) (g z doy : ℕ → ℝ) (dc : Series) (c p mc mz : ℝ) (hp : 0 < p) (hmc : 0 < mc) (use : Bool)
    (dew : Option (ℕ → ℝ)) (i : ℕ) (hi : 0 ≤ z i ∧ z i ≤ 90)
    (hnb : use = true → ∃ j, (j = i + 1 ∧ j < n ∨ j + 1 = i) ∧ 0 ≤ z j ∧ z j ≤ 90)
    (hbeam : (disc (fin (g i)) (fin (z i)) (fin (doy i)) (some (fin p)) (fin mc) (fin mz)).dni ≠ fin 0)
    (hc : dc i = fin c) (hc0 : 0 ≤ c) :
    dirindex n (fun j => fin (g j)) (fun j => fin (g j)) dc (fun j => fin (z j)) (fun j => fin (doy j)) (some (fin p)) use
      (dew.map (fun t j => fin (t j))) (fin mc) (fin mz) i = fin c := by
  obtain ⟨d, k, hd, hd0, hk, -, hdir⟩ := dirint_day n g z doy p mc mz hp hmc use dew i hi hnb
  have hdne : d ≠ 0 := by rintro rfl; exact hbeam hd
  have hkne : k ≠ 0 := by rintro rfl; norm_num at hk
  rw [dirindex_value _ _ _ _ _ _ _ _ _ _ _ _ c _ _ hc hdir hdir (mul_ne_zero hdne hkne),
    div_self (mul_ne_zero hdne hkne), mul_one, max_eq_left hc0]

/-- A clear hour gives the clear-sky beam back. -/
example := dirindex_clear 1 (fun _ => 700) (fun _ => 0) (fun _ => 1) (fun _ => fin 900) 900 101325 0.065 87 (by norm_num) (by norm_num)
  false none 0 (by norm_num) (by simp) demo_disc rfl (by norm_num)

/-- **C138** (range) on such rows DIRINDEX is at most 381.62 times the ratio of the DISC estimates times the clear-sky
DNI (the spread of the DIRINT table), and at least 0.0026 times it. -/
theorem dirindex_range (n : ℕ) (g gc z doy : ℕ → ℝ) (dc : Series) (c p mc mz : ℝ) (hp : 0 < p) (hmc : 0 < mc) (use : Bool)
    (dew : Option (ℕ → ℝ)) (i : ℕ) (hi : 0 ≤ z i ∧ z i ≤ 90)
    (hnb : use = true → ∃ j, (j = i + 1 ∧ j < n ∨ j + 1 = i) ∧ 0 ≤ z j ∧ z j ≤ 90)
    (hbeam : (disc (fin (gc i)) (fin (z i)) (fin (doy i)) (some (fin p)) (fin mc) (fin mz)).dni ≠ fin 0)
    (hc : dc i = fin c) (hc0 : 0 ≤ c) :
    ∃ d e r : ℝ, (disc (fin (g i)) (fin (z i)) (fin (doy i)) (some (fin p)) (fin mc) (fin mz)).dni = fin d ∧
      (disc (fin (gc i)) (fin (z i)) (fin (doy i)) (some (fin p)) (fin mc) (fin mz)).dni = fin e ∧ 0 < e ∧
      dirindex n (fun j => fin (g j)) (fun j => fin (gc j)) dc (fun j => fin (z j)) (fun j => fin (doy j)) (some (fin p)) use
        (dew.map (fun t j => fin (t j))) (fin mc) (fin mz) i = fin r ∧
      0.0026 * (c * (d / e)) ≤ r ∧ r ≤ 381.62 * (c * (d / e)) := by
  obtain ⟨d, k, hd, hd0, hk, hk', hdir⟩ := dirint_day n g z doy p mc mz hp hmc use dew i hi hnb
  obtain ⟨e, l, he, he0, hl, hl', hdir'⟩ := dirint_day n gc z doy p mc mz hp hmc use dew i hi hnb
  have hene : e ≠ 0 := by rintro rfl; exact hbeam he
  have hepos : 0 < e := lt_of_le_of_ne he0 hene.symm
  have hlpos : 0 < l := by norm_num at hl; linarith
  have hkpos : 0 < k := by norm_num at hk; linarith
  have hq : 0 ≤ c * (d / e) := mul_nonneg hc0 (div_nonneg hd0 hepos.le)
  have hrat : c * (d * k / (e * l)) = (c * (d / e)) * (k / l) := by field_simp
  have hkl1 : k / l ≤ 381.62 := by
    rw [div_le_iff₀ hlpos]; norm_num at hk' hl ⊢; linarith
  have hkl2 : 0.0026 ≤ k / l := by
    rw [le_div_iff₀ hlpos]; norm_num at hk hl' ⊢; linarith
  refine ⟨d, e, _, hd, he, hepos, dirindex_value _ _ _ _ _ _ _ _ _ _ _ _ c _ _ hc hdir hdir'
    (mul_ne_zero hene hlpos.ne'), ?_, ?_⟩
  · rw [hrat, max_eq_left (mul_nonneg hq (by positivity)), mul_comm]
    exact mul_le_mul_of_nonneg_left hkl2 hq
  · rw [hrat, max_eq_left (mul_nonneg hq (by positivity)), mul_comm 381.62]
    exact mul_le_mul_of_nonneg_left hkl1 hq

/-- Half the clear-sky irradiance, two hours, with the stability index of the neighbouring hour. -/
example := dirindex_range 2 (fun _ => 350) (fun _ => 700) (fun _ => 0) (fun _ => 1) (fun _ => fin 900) 900 101325 0.065 87 (by norm_num)
  (by norm_num) true none 0 (by norm_num) (fun _ => ⟨1, Or.inl ⟨rfl, by norm_num⟩, by norm_num, by norm_num⟩) demo_disc rfl
  (by norm_num)

/-- **C138** (low sun) with the sun lower than `max_zenith` but still up, both DIRINT estimates are 0 and DIRINDEX is
NaN, whatever the clear-sky DNI. -/
theorem dirindex_low_sun (n : ℕ) (g gc z doy : ℕ → ℝ) (dc : Series) (c p mc mz : ℝ) (hp : 0 < p) (hmc : 0 < mc) (use : Bool)
    (dew : Option (ℕ → ℝ)) (i : ℕ) (hi : 0 ≤ z i ∧ z i ≤ 90) (hlow : mz < z i)
    (hnb : use = true → ∃ j, (j = i + 1 ∧ j < n ∨ j + 1 = i) ∧ 0 ≤ z j ∧ z j ≤ 90) (hc : dc i = fin c) :
    dirindex n (fun j => fin (g j)) (fun j => fin (gc j)) dc (fun j => fin (z j)) (fun j => fin (doy j)) (some (fin p)) use
      (dew.map (fun t j => fin (t j))) (fin mc) (fin mz) i = nan := by
  obtain ⟨d, k, hd, -, -, -, hdir⟩ := dirint_day n g z doy p mc mz hp hmc use dew i hi hnb
  obtain ⟨e, l, he, -, -, -, hdir'⟩ := dirint_day n gc z doy p mc mz hp hmc use dew i hi hnb
  rw [disc_bad _ _ _ _ _ _ _ (Or.inl (show (mz : ℝ) < z i from hlow))] at hd he
  simp only [fin_inj] at hd he
  subst hd; subst he
  simp only [dirindex, hc, hdir, hdir', zero_mul, fin_mul, mul_zero, fin_div_zero, infSign_zero, nan_lt, if_false]

example := dirindex_low_sun 1 (fun _ => 20) (fun _ => 30) (fun _ => 89) (fun _ => 1) (fun _ => fin 90) 90 101325 0.065 87 (by norm_num)
  (by norm_num) false none 0 (by norm_num) (by norm_num) (by simp) rfl

/-! ## C139 -/

variable (tbl : String → Option PerezTable)

private theorem ok_of_dirint {c : GtiCall} {o : GtiOut} (h : gtiDirint tbl c = .ok o) :
    ∃ b hist, gtiDirintLt90 c.n (gtiStep tbl c) c.poa_global (fun p => c.aoi p < 90) c.max_iterations = .ok (b, hist) ∧
      ∀ p, (c.aoi p < 90 → o.ghi p = b.1 p ∧ o.dni p = b.2.1 p ∧ o.dhi p = b.2.2.1 p) ∧
        (¬ c.aoi p < 90 →
          (c.calculate_gt_90 = false → o.ghi p = nan ∧ o.dni p = nan ∧ o.dhi p = nan) ∧
          (c.calculate_gt_90 = true → o.ghi p = (gtiGte90 c b.2.2.2).1 p ∧ o.dni p = (gtiGte90 c b.2.2.2).2.1 p ∧
            o.dhi p = (gtiGte90 c b.2.2.2).2.2 p)) := by
  unfold gtiDirint at h
  simp only at h
  by_cases h1 : ¬ ∃ p < c.n, c.aoi p < 90
  · rw [if_pos h1] at h; cases h
  rw [if_neg h1] at h
  split at h
  · cases h
  · split at h
    · cases h
    · rename_i ghi dni dhi kt_prime hist hlt
      refine ⟨(ghi, dni, dhi, kt_prime), hist, hlt, ?_⟩
      simp only [Except.ok.injEq] at h
      subst h
      intro p
      refine ⟨fun hp => by simp only [hp, if_true, and_self], fun hp => ⟨fun hc => ?_, fun hc => ?_⟩⟩
      · simp only [hp, if_false, hc, Bool.false_eq_true, and_self]
      · simp only [hp, if_false, hc, if_true, and_self]

/-- **C139** without a time with AOI < 90° the call is rejected. -/
theorem gti_dirint_no_front (c : GtiCall) (h : ∀ p < c.n, ¬ c.aoi p < 90) :
    gtiDirint tbl c = .error .valueError := by
  unfold gtiDirint
  simp only
  rw [if_pos]
  rintro ⟨p, hp, hq⟩
  exact h p hp hq

/-- A day of two samples: the sun in front of the plane, then behind it. -/
def demoCall : GtiCall where
  n := 2
  poa_global := fun i => if i = 0 then fin 500 else fin 100
  aoi := fun i => if i = 0 then fin 30 else fin 100
  solar_zenith := fun i => if i = 0 then fin 40 else fin 80
  solar_azimuth := fun i => if i = 0 then fin 170 else fin 290
  doy := fun _ => fin 100
  date := fun _ => 0
  surface_tilt := fin 30
  surface_azimuth := fin 180
  model := "isotropic"

example := gti_dirint_no_front (fun _ => none) { demoCall with aoi := fun _ => fin 100 }
  (fun _ _ => by rw [Fl.ofNat_eq]; simp only [fin_lt]; norm_num)

/-- **C139** with at least one such time, at least one iteration and a known transposition model, it returns. -/
theorem gti_dirint_returns (c : GtiCall) (p : ℕ) (hp : p < c.n) (haoi : c.aoi p < 90) (hm : 0 < c.max_iterations)
    (hmodel : pyLower c.model ∈ knownModels)
    (htab : pyLower c.model = "perez" → (tbl c.model_perez).isSome) :
    ∃ o, gtiDirint tbl c = .ok o := by
  unfold gtiDirint
  simp only
  rw [if_neg (by push Not; exact ⟨p, hp, haoi⟩), if_neg hm.ne']
  have hirr : ∀ dni ghi dhi q, ∃ r, gtiIrrad tbl c dni ghi dhi q = .ok r := by
    intro dni ghi dhi q
    unfold gtiIrrad getTotalIrradiance
    have : ∃ s, getSkyDiffuse tbl pdF c.surface_tilt c.surface_azimuth (c.solar_zenith q) (c.solar_azimuth q)
        (dni q) (ghi q) (dhi q) (some (extraSpencer (c.doy q) 1370)) (some (gtiAirmass c q)) c.model c.model_perez false
        = .ok s := by
      rw [skyDiffuse_ok_iff]
      refine ⟨hmodel, ?_, ?_, ?_⟩ <;> simp
      intro h
      have := htab h
      cases hh : tbl c.model_perez <;> simp_all
    obtain ⟨s, hs⟩ := this
    rw [hs]
    exact ⟨_, rfl⟩
  obtain ⟨r, hr⟩ := hirr (gtiStep tbl c c.poa_global).dni (gtiStep tbl c c.poa_global).ghi
    (gtiStep tbl c c.poa_global).dhi 0
  rw [hr]
  simp only [Except.map]
  cases hl : gtiDirintLt90 c.n (gtiStep tbl c) c.poa_global (fun p => c.aoi p < 90) c.max_iterations with
  | ok v => obtain ⟨⟨a, b, d, e⟩, f⟩ := v; exact ⟨_, rfl⟩
  | error e =>
    exfalso
    have he : e = .unboundLocal := by
      simp only [gtiDirintLt90] at hl
      split at hl
      · cases hl
      · simpa using hl.symm
    subst he
    rw [gtiDirint_error_iff] at hl
    rcases hl with hl | hl
    · omega
    · exact hl ⟨p, hp, haoi⟩

theorem demoCall_front : demoCall.aoi 0 < 90 := by
  show (30 : ℝ) < 90; norm_num
theorem demoCall_behind : ¬ demoCall.aoi 1 < 90 := by
  show ¬ (100 : ℝ) < 90; norm_num
theorem demoCall_returns : ∃ o, gtiDirint (fun _ => none) demoCall = .ok o := by
  have hl : pyLower "isotropic" = "isotropic" := by decide +kernel
  refine gti_dirint_returns _ demoCall 0 (by decide) demoCall_front (by decide) ?_ ?_
  · simp [knownModels, demoCall, hl]
  · simp [demoCall, hl]
theorem demoCall_off_returns : ∃ o, gtiDirint (fun _ => none) { demoCall with calculate_gt_90 := false } = .ok o := by
  have hl : pyLower "isotropic" = "isotropic" := by decide +kernel
  refine gti_dirint_returns _ _ 0 (by decide) demoCall_front (by decide) ?_ ?_
  · simp [knownModels, demoCall, hl]
  · simp [demoCall, hl]
theorem demoCall_south_returns : ∃ o, gtiDirint (fun _ => none) { demoCall with solar_azimuth := fun _ => fin 180 } = .ok o := by
  have hl : pyLower "isotropic" = "isotropic" := by decide +kernel
  refine gti_dirint_returns _ _ 0 (by decide) demoCall_front (by decide) ?_ ?_
  · simp [knownModels, demoCall, hl]
  · simp [demoCall, hl]

/-- An unknown transposition model is a ValueError. -/
theorem gti_dirint_bad_model (c : GtiCall) (hm : 0 < c.max_iterations) (hmodel : pyLower c.model ∉ knownModels) :
    gtiDirint tbl c = .error .valueError := by
  unfold gtiDirint
  simp only
  by_cases h1 : ¬ ∃ p < c.n, c.aoi p < 90
  · rw [if_pos h1]
  · rw [if_neg h1, if_neg hm.ne']
    have : ∀ dni ghi dhi q, gtiIrrad tbl c dni ghi dhi q = .error .valueError := by
      intro dni ghi dhi q
      unfold gtiIrrad getTotalIrradiance
      have : getSkyDiffuse tbl pdF c.surface_tilt c.surface_azimuth (c.solar_zenith q) (c.solar_azimuth q)
        (dni q) (ghi q) (dhi q) (some (extraSpencer (c.doy q) 1370)) (some (gtiAirmass c q)) c.model c.model_perez false
        = .error .valueError := by
        simp only [knownModels, List.mem_cons, List.not_mem_nil, or_false, not_or] at hmodel
        simp [getSkyDiffuse, hmodel]
      rw [this]; rfl
    rw [this]; rfl

example := gti_dirint_bad_model (fun _ => none) { demoCall with model := "anisotropic" } (by decide) (by
  have hl : pyLower "anisotropic" = "anisotropic" := by decide +kernel
  simp [knownModels, hl])

private theorem coeff_nonneg (k z w d : Fl) : NanOr (dirintCoeffs k z w d) (fun x => 0 ≤ x) := by
  simp only [dirintCoeffs, npwhere]
  split_ifs
  · exact Or.inl rfl
  · refine Or.inr ⟨_, rfl, ?_⟩
    unfold dirintTable
    positivity

/-- DIRINT from a non-negative DNI is not negative. -/
private theorem mul_nonneg' {x y : Fl} (hx : ¬ x < 0) (hy : NanOr y (fun r => 0 ≤ r)) : ¬ x * y < 0 := by
  rcases hy with rfl | ⟨r, rfl, hr⟩
  · simp
  · cases x with
    | nan => simp
    | ninf => simp at hx
    | pinf =>
      rw [pinf_mul_fin]; unfold infSign; split_ifs <;> first | linarith | simp
    | fin a =>
      have : 0 ≤ a := not_lt.mp hx
      rw [fin_mul]; exact not_lt.mpr (mul_nonneg this hr)

private theorem max_not_neg (x : Fl) : ¬ maximum x 0 < 0 := by
  cases x <;> simp

/-- What one pass guarantees at a time with real results: nothing negative, and closure up to the clipping of DHI. -/
private theorem step_facts (c : GtiCall) (x : Series) (p : ℕ) :
    (¬ (gtiStep tbl c x).ghi p < 0 ∧ ¬ (gtiStep tbl c x).dni p < 0 ∧ ¬ (gtiStep tbl c x).dhi p < 0) ∧
    ∀ g d z doy : ℝ, (gtiStep tbl c x).ghi p = fin g → (gtiStep tbl c x).dni p = fin d → c.solar_zenith p = fin z →
      c.doy p = fin doy → (gtiStep tbl c x).dhi p = fin (max (g - d * cosDeg z) 0) := by
  refine ⟨⟨max_not_neg _, max_not_neg _, max_not_neg _⟩, ?_⟩
  intro g d z doy hg hd hz hdoy
  simp only [gtiStep] at hg hd ⊢
  set kt := clearnessIndex (x p) (c.aoi p) (extraSpencer (c.doy p) 1370) with hkt
  obtain ⟨f, hE, hf, -⟩ := extraSpencer_fin doy 1370
  have he : 0 < 1370 * f := by norm_num at hf; linarith
  have hE' : extraSpencer (c.doy p) 1370 = fin (1370 * f) := by rw [hdoy]; exact hE
  have hcz : cosd (c.solar_zenith p) = fin (cosDeg z) := by rw [hz]; simp [cosd]
  have hraw : kt * (extraSpencer (c.doy p) 1370 * maximum 0.065 (cosd (c.solar_zenith p))) = fin g := by
    rw [hE', hcz] at hg ⊢
    simp only [ofScientific_eq, maximum_fin, fin_mul] at hg ⊢
    have hkr : NanOr kt (fun k => 0 ≤ k ∧ k ≤ 2) := clearnessIndex_range _ _ _ _ 2 (by norm_num)
    rcases hkr with hk | ⟨k, hk, hk0, -⟩
    · rw [hk] at hg; simp at hg
    · rw [hk] at hg ⊢
      simp only [fin_mul, zero_eq, maximum_fin, fin_inj] at hg ⊢
      rw [max_eq_left] at hg
      · exact hg
      · have : (0 : ℝ) < max 0.065 (cosDeg z) := lt_of_lt_of_le (by norm_num) (le_max_left _ _)
        positivity
  have hdr : ∀ y : Fl, ¬ y < 0 → maximum y 0 = fin d → y = fin d := by
    intro y hy hm
    cases y with
    | nan => simp at hm
    | ninf => simp at hy
    | pinf => simp at hm
    | fin r => rw [zero_eq, maximum_fin, max_eq_left (not_lt.mp hy)] at hm; exact hm
  have hdraw := hdr _ (by
    simp only [dirintFromDniKtprime]
    exact mul_nonneg' (max_not_neg _) (coeff_nonneg _ _ _ _)) hd
  rw [hraw, hdraw, hcz]
  simp

/-- The pass that produced the values of a front time. -/
private theorem front_pass {c : GtiCall} {o : GtiOut} (h : gtiDirint tbl c = .ok o) (p : ℕ) (hp : c.aoi p < 90) :
    ∃ x, o.ghi p = (gtiStep tbl c x).ghi p ∧ o.dni p = (gtiStep tbl c x).dni p ∧ o.dhi p = (gtiStep tbl c x).dhi p := by
  obtain ⟨b, hist, hl, hb⟩ := ok_of_dirint tbl h
  obtain ⟨e1, e2, e3⟩ := (hb p).1 hp
  have hmem : ∃ r ∈ hist, at' b p = data r p := by
    rcases gtiDirint_best _ _ _ _ _ _ _ hl p with ⟨r, hr, ha, -⟩ | ⟨-, f, hf, ha⟩
    · exact ⟨r, hr, ha⟩
    · exact ⟨f, List.mem_of_getLast? hf, ha⟩
  obtain ⟨r, hr, ha⟩ := hmem
  have hg := (gtiDirint_guesses _ _ _ _ _ _ _ hl).1
  have : r ∈ hist.reverse := List.mem_reverse.mpr hr
  rw [hg, List.mem_map] at this
  obtain ⟨k, -, hk⟩ := this
  refine ⟨guess (gtiStep tbl c) c.poa_global k, ?_⟩
  rw [hk]
  simp only [at', data, Prod.mk.injEq] at ha
  exact ⟨e1.trans ha.1, e2.trans ha.2.1, e3.trans ha.2.2.1⟩

/-- **C139** (AOI < 90°) the components are NaN or non-negative, and where GHI and DNI are real, DHI is what closes
`ghi = dhi + dni cos(zenith)`, or 0 when the projected beam already exceeds GHI. -/
theorem gti_dirint_front (c : GtiCall) (o : GtiOut) (h : gtiDirint tbl c = .ok o) (p : ℕ) (hp : c.aoi p < 90) :
    (¬ o.ghi p < 0 ∧ ¬ o.dni p < 0 ∧ ¬ o.dhi p < 0) ∧
    ∀ g d z doy : ℝ, o.ghi p = fin g → o.dni p = fin d → c.solar_zenith p = fin z → c.doy p = fin doy →
      o.dhi p = fin (max (g - d * cosDeg z) 0) := by
  obtain ⟨x, h1, h2, h3⟩ := front_pass tbl h p hp
  rw [h1, h2, h3]
  exact step_facts tbl c x p

example := gti_dirint_front _ _ _ demoCall_returns.choose_spec 0 demoCall_front

/-- The plane-of-array irradiance that `get_total_irradiance` computes from three components at time `p`, with the
extraterrestrial irradiance and airmass of GTI-DIRINT; NaN if it raises. -/
def reTransposed (c : GtiCall) (ghi dni dhi : Series) (p : ℕ) : Fl :=
  match getTotalIrradiance tbl pdF c.surface_tilt c.surface_azimuth (c.solar_zenith p) (c.solar_azimuth p)
    (dni p) (ghi p) (dhi p) (some (extraSpencer (c.doy p) 1370))
    (some (Atmosphere.absoluteAirmass (Atmosphere.kasten1966 (c.solar_zenith p)) c.pressure)) c.albedo none c.model
    c.model_perez false with
  | .ok r => r.poa_global
  | .error _ => nan

/-- **C139** (fit, AOI < 90°) transposing the returned components back, either every time with AOI < 90° reproduces the
measured irradiance within 1 W/m², or all `max_iterations` guesses were tried and at every such time the returned components
fit at least as well as those of every guess (unless no guess came within 9999 W/m²). -/
theorem gti_dirint_fit (c : GtiCall) (o : GtiOut) (h : gtiDirint tbl c = .ok o) :
    (∀ p < c.n, c.aoi p < 90 → Fl.abs (reTransposed tbl c o.ghi o.dni o.dhi p - c.poa_global p) ≤ 1) ∨
    (∀ p, c.aoi p < 90 → ∀ k < c.max_iterations,
      let r := gtiStep tbl c (guess (gtiStep tbl c) c.poa_global k)
      ¬ Fl.abs (reTransposed tbl c r.ghi r.dni r.dhi p - c.poa_global p) <
          Fl.abs (reTransposed tbl c o.ghi o.dni o.dhi p - c.poa_global p) ∨
      ¬ Fl.abs (reTransposed tbl c r.ghi r.dni r.dhi p - c.poa_global p) < 9999) := by
  obtain ⟨b, hist, hl, hb⟩ := ok_of_dirint tbl h
  have hg := (gtiDirint_guesses _ _ _ _ _ _ _ hl).1
  have hre : ∀ (r : GtiIter) p, r ∈ hist → c.aoi p < 90 → at' b p = data r p →
      misfit c.poa_global r p = Fl.abs (reTransposed tbl c o.ghi o.dni o.dhi p - c.poa_global p) := by
    intro r p hr hp ha
    have : r ∈ hist.reverse := List.mem_reverse.mpr hr
    rw [hg, List.mem_map] at this
    obtain ⟨k, -, hk⟩ := this
    obtain ⟨e1, e2, e3⟩ := (hb p).1 hp
    simp only [at', data, Prod.mk.injEq] at ha
    unfold misfit reTransposed
    rw [e1, e2, e3, ha.1, ha.2.1, ha.2.2.1, ← hk]
    rfl
  obtain ⟨-, hst⟩ := gtiDirint_stops _ _ _ _ _ _ _ hl
  rcases hst with hlen | hall
  · right
    intro p hp k hk
    have hmem : gtiStep tbl c (guess (gtiStep tbl c) c.poa_global k) ∈ hist := by
      rw [← List.mem_reverse, hg, List.mem_map]
      exact ⟨k, by rw [List.mem_range, hlen]; exact hk, rfl⟩
    have hself : misfit c.poa_global (gtiStep tbl c (guess (gtiStep tbl c) c.poa_global k)) p =
        Fl.abs (reTransposed tbl c (gtiStep tbl c (guess (gtiStep tbl c) c.poa_global k)).ghi
          (gtiStep tbl c (guess (gtiStep tbl c) c.poa_global k)).dni
          (gtiStep tbl c (guess (gtiStep tbl c) c.poa_global k)).dhi p - c.poa_global p) := rfl
    intro r
    rw [← hself]
    rcases gtiDirint_best _ _ _ _ _ _ _ hl p with ⟨r, hr, ha, -, hmin⟩ | ⟨hno, -⟩
    · left; rw [← hre r p hr hp ha]; exact hmin _ hmem
    · right; exact hno _ hmem
  · left
    intro p hp hlt
    obtain ⟨r, hr, hle, ha⟩ := hall p hp hlt
    rw [← hre r p hr hlt ha]; exact hle

example := gti_dirint_fit _ _ _ demoCall_returns.choose_spec

/-- **C139** (the pass) what a guess `x` of plane-of-array irradiance means at a daytime row with real data: its clearness
index on the plane is `kt = min(max(x / (I0 max(cos aoi, 0.065)), 0), 2)`, GHI is that clearness index on the horizontal,
and DNI is DISC's estimate for it times a DIRINT coefficient (so 0 exactly if DISC gives nothing). -/
theorem gti_pass_formula (c : GtiCall) (x : Series) (p : ℕ) (xp a z doy pr : ℝ) (hx : x p = fin xp) (ha : c.aoi p = fin a)
    (hz : c.solar_zenith p = fin z) (hdoy : c.doy p = fin doy) (hpr : c.pressure = fin pr) (hp0 : 0 < pr)
    (h0 : 0 ≤ z) (h1 : z ≤ 90) :
    ∃ I0 am : ℝ, extraSpencer (fin doy) 1370 = fin I0 ∧ 0 < I0 ∧
      Atmosphere.kasten1966 (fin z) = fin am ∧
      (gtiStep tbl c x).ghi p = fin (min (max (xp / (I0 * max (cosDeg a) 0.065)) 0) 2 * (I0 * max 0.065 (cosDeg z))) ∧
      NanOr ((gtiStep tbl c x).dni p) (fun d => ∃ kn q : ℝ,
        (discKn (fin (min (max (xp / (I0 * max (cosDeg a) 0.065)) 0) 2)) (fin (am * pr / 101325))).1 = fin kn ∧ 0 ≤ q ∧
        d = max (kn * I0) 0 * q) := by
  obtain ⟨f, hE, hf, -⟩ := extraSpencer_fin doy 1370
  have he : 0 < 1370 * f := by norm_num at hf; linarith
  obtain ⟨am, ham, hka⟩ := kasten1966_fin z h0 h1
  have hE' : extraSpencer (c.doy p) 1370 = fin (1370 * f) := by rw [hdoy]; exact hE
  have hkt := clearnessIndex_value xp a (1370 * f) 0.065 2 he.ne' (by norm_num)
  have hkt' : clearnessIndex (x p) (c.aoi p) (extraSpencer (c.doy p) 1370) =
      fin (min (max (xp / (1370 * f * max (cosDeg a) 0.065)) 0) 2) := by
    rw [hE', hx, ha]; exact hkt
  set kt := min (max (xp / (1370 * f * max (cosDeg a) 0.065)) 0) 2 with hktd
  have hk0 : 0 ≤ kt := le_min (le_max_right _ _) (by norm_num)
  have hcz : cosd (c.solar_zenith p) = fin (cosDeg z) := by rw [hz]; simp [cosd]
  have hairm : gtiAirmass c p = fin (am * pr / 101325) := by
    unfold gtiAirmass; rw [hz, hka, hpr]; simp [Atmosphere.absoluteAirmass]
  refine ⟨1370 * f, am, hE, he, hka, ?_, ?_⟩
  · simp only [gtiStep]
    rw [hkt', hE', hcz]
    have : (0 : ℝ) < max 0.065 (cosDeg z) := lt_of_lt_of_le (by norm_num) (le_max_left _ _)
    simp only [ofScientific_eq, maximum_fin, fin_mul, zero_eq, fin_inj]
    exact max_eq_left (by positivity)
  · obtain ⟨kn, hkn⟩ : ∃ kn : ℝ, (discKn (fin kt) (fin (am * pr / 101325))).1 = fin kn := by
      simp only [discKn, npwhere]
      split_ifs <;>
        simp only [ofScientific_eq, ofNat_eq, neg_fin, fin_mul, fin_add, fin_sub, exp_fin, minimum_fin] <;> exact ⟨_, rfl⟩
    simp only [gtiStep, dirintFromDniKtprime]
    rw [hkt', hE', hairm, hkn]
    rcases coeff_nonneg (clearnessIndexZenithIndependent (fin kt) (fin (am * pr / 101325))) (c.solar_zenith p)
      (tempDewW c.temp_dew p) (deltaKtPrime c.n (fun p => clearnessIndexZenithIndependent
        (clearnessIndex (x p) (c.aoi p) (extraSpencer (c.doy p) 1370)) (gtiAirmass c p)) c.use_delta_kt_prime p)
      with hc | ⟨q, hc, hq⟩
    · rw [hc]; left; simp
    · rw [hc]; right
      refine ⟨max (max (kn * (1370 * f)) 0 * q) 0, by simp, kn, q, rfl, hq, ?_⟩
      exact max_eq_left (mul_nonneg (le_max_right _ _) hq)

example := gti_pass_formula (fun _ => none) demoCall demoCall.poa_global 0 500 30 40 100 101325 rfl rfl rfl rfl rfl (by norm_num) (by norm_num)
  (by norm_num)

/-- **C139** (AOI ≥ 90°, not calculated) NaN. -/
theorem gti_dirint_back_off (c : GtiCall) (o : GtiOut) (h : gtiDirint tbl c = .ok o) (p : ℕ) (hp : ¬ c.aoi p < 90)
    (hc : c.calculate_gt_90 = false) : o.ghi p = nan ∧ o.dni p = nan ∧ o.dhi p = nan := by
  obtain ⟨b, hist, hl, hb⟩ := ok_of_dirint tbl h
  exact ((hb p).2 hp).1 hc

example := gti_dirint_back_off _ _ _ demoCall_off_returns.choose_spec 1 demoCall_behind rfl

private theorem disc_nan (am : Fl) : (discKn nan am).1 = nan := by
  simp [discKn, npwhere]

/-- **C139** (AOI ≥ 90°) after sunset (zenith not below 90°), exactly at azimuth 180°, or at a NaN AOI, all three are NaN. -/
theorem gti_dirint_back_nan (c : GtiCall) (o : GtiOut) (h : gtiDirint tbl c = .ok o) (p : ℕ) (hp : ¬ c.aoi p < 90)
    (hc : ¬ c.solar_zenith p < 90 ∨ c.solar_azimuth p = fin 180 ∨ c.aoi p = nan) :
    o.ghi p = nan ∧ o.dni p = nan ∧ o.dhi p = nan := by
  obtain ⟨b, hist, hl, hb⟩ := ok_of_dirint tbl h
  cases hcal : c.calculate_gt_90 with
  | false => exact ((hb p).2 hp).1 hcal
  | true =>
    obtain ⟨e1, e2, e3⟩ := ((hb p).2 hp).2 hcal
    have hk : gtiGte90KtPrime c b.2.2.2 p = nan := by
      unfold gtiGte90KtPrime
      simp only
      rw [if_neg, if_neg]
      · rintro ⟨h1, h2, h3⟩
        rcases hc with h | h | h
        · exact h h1
        · rw [h] at h3
          have : (180 : ℝ) < 180 := h3
          linarith
        · rw [h] at h2; simp at h2
      · rintro ⟨h1, h2, h3⟩
        rcases hc with h | h | h
        · exact h h1
        · rw [h] at h3
          have : (180 : ℝ) < 180 := h3
          linarith
        · rw [h] at h2; simp at h2
    rw [e1, e2, e3]
    simp only [gtiGte90, dirintFromDniKtprime, hk, nan_mul, disc_nan, maximum_nan_left, mul_nan, sub_nan, nan_div, nan_add,
      and_self]

example := gti_dirint_back_nan _ _ _ demoCall_south_returns.choose_spec 1 demoCall_behind (Or.inr (Or.inl rfl))

/-- **C139** (AOI ≥ 90°) DNI is NaN or not negative. -/
theorem gti_dirint_back_dni (c : GtiCall) (o : GtiOut) (h : gtiDirint tbl c = .ok o) (p : ℕ) (hp : ¬ c.aoi p < 90) :
    ¬ o.dni p < 0 := by
  obtain ⟨b, hist, hl, hb⟩ := ok_of_dirint tbl h
  cases hcal : c.calculate_gt_90 with
  | false => rw [(((hb p).2 hp).1 hcal).2.1]; simp
  | true =>
    rw [(((hb p).2 hp).2 hcal).2.1]
    simp only [gtiGte90, dirintFromDniKtprime]
    exact mul_nonneg' (max_not_neg _) (coeff_nonneg _ _ _ _)

example := gti_dirint_back_dni _ _ _ demoCall_returns.choose_spec 1 demoCall_behind

private theorem back_alg (d u a C m : ℝ) (hsee : 1 + C + a * (1 - C) ≠ 0) :
    (2 * m - d * u * a * (1 - C)) / (1 + C + a * (1 - C)) * (1 + C) * 0.5 +
      (d * u + (2 * m - d * u * a * (1 - C)) / (1 + C + a * (1 - C))) * a * (1 - C) * 0.5 = m := by
  have key : (2 * m - d * u * a * (1 - C)) / (1 + C + a * (1 - C)) * (1 + C + a * (1 - C))
    = 2 * m - d * u * a * (1 - C) := div_mul_cancel₀ _ hsee
  generalize (2 * m - d * u * a * (1 - C)) / (1 + C + a * (1 - C)) = q at *
  norm_num
  linear_combination key / 2

/-- **C139** (AOI ≥ 90°, consistency) wherever the DNI is real, with a real reading, tilt, sun and albedo (and a plane
that sees some sky or some reflecting ground), GHI and DHI are real, close exactly, and the isotropic sky diffuse plus the
ground reflection of the returned components is exactly the measured plane-of-array irradiance. -/
theorem gti_dirint_back_consistent (c : GtiCall) (o : GtiOut) (h : gtiDirint tbl c = .ok o) (p : ℕ) (hp : ¬ c.aoi p < 90)
    (hcal : c.calculate_gt_90 = true) (d z t a m : ℝ) (hd : o.dni p = fin d) (hz : c.solar_zenith p = fin z)
    (ht : c.surface_tilt = fin t) (ha : c.albedo = fin a) (hm : c.poa_global p = fin m)
    (hsee : 1 + cosDeg t + a * (1 - cosDeg t) ≠ 0) :
    ∃ g f : ℝ, o.ghi p = fin g ∧ o.dhi p = fin f ∧ g = f + d * cosDeg z ∧
      ∃ gr, groundDiffuse c.surface_tilt (o.ghi p) c.albedo none = .ok gr ∧
        (isotropic c.surface_tilt (o.dhi p)).poa_sky_diffuse + gr = c.poa_global p := by
  obtain ⟨b, hist, hl, hb⟩ := ok_of_dirint tbl h
  obtain ⟨e1, e2, e3⟩ := ((hb p).2 hp).2 hcal
  have hct : cosd c.surface_tilt = fin (cosDeg t) := by rw [ht]; simp [cosd]
  have hcz : cosd (c.solar_zenith p) = fin (cosDeg z) := by rw [hz]; simp [cosd]
  have hdni : (gtiGte90 c b.2.2.2).2.1 p = fin d := e2 ▸ hd
  have hdhi : o.dhi p = fin ((2 * m - d * cosDeg z * a * (1 - cosDeg t)) / (1 + cosDeg t + a * (1 - cosDeg t))) := by
    rw [e3]
    have : (gtiGte90 c b.2.2.2).2.2 p = (2 * c.poa_global p - (gtiGte90 c b.2.2.2).2.1 p * cosd (c.solar_zenith p) *
        c.albedo * (1 - cosd c.surface_tilt)) / (1 + cosd c.surface_tilt + c.albedo * (1 - cosd c.surface_tilt)) := rfl
    rw [this, hdni, hct, hcz, ha, hm]
    simp only [ofNat_eq, one_eq, fin_mul, fin_sub, fin_add]
    rw [fin_div hsee]
  have hghi : o.ghi p = fin (d * cosDeg z +
      (2 * m - d * cosDeg z * a * (1 - cosDeg t)) / (1 + cosDeg t + a * (1 - cosDeg t))) := by
    rw [e1]
    have : (gtiGte90 c b.2.2.2).1 p = (gtiGte90 c b.2.2.2).2.1 p * cosd (c.solar_zenith p) +
      (gtiGte90 c b.2.2.2).2.2 p := rfl
    rw [this, hdni, hcz, ← e3, hdhi]; simp
  refine ⟨_, _, hghi, hdhi, by ring, _, rfl, ?_⟩
  rw [hghi, hdhi, ht, ha, hm]
  simp only [isotropic, cosd, radians_fin, cos_fin, ofNat_eq, one_eq, ofScientific_eq, fin_mul, fin_sub, fin_add, fin_inj]
  have := back_alg d (cosDeg z) a (cosDeg t) m hsee
  norm_num at this ⊢
  linarith

example (d : ℝ) (hd : demoCall_returns.choose.dni 1 = fin d) :=
  gti_dirint_back_consistent _ _ _ demoCall_returns.choose_spec 1 demoCall_behind rfl d 80 30 0.25 100 hd rfl rfl rfl rfl
    (by have := cosDeg_pos_of (x := 30) (by norm_num) (by norm_num)
        nlinarith)

/-! ### The clearness index used behind the plane -/

private theorem foldl_fin (w : List ℕ) (x : Series) (f : ℕ → ℝ) (h : ∀ j ∈ w, x j = fin (f j)) (a : ℝ) :
    w.foldl (fun a j => a + x j) (fin a) = fin (a + (w.map f).sum) := by
  induction w generalizing a with
  | nil => simp
  | cons j w ih =>
    simp only [List.foldl_cons, h j (List.mem_cons_self ..), fin_add]
    rw [ih (fun k hk => h k (List.mem_cons_of_mem _ hk))]
    simp [add_assoc]

private theorem maskedMean_spec (n : ℕ) (mask : ℕ → Prop) (x : Series) (f : ℕ → ℝ) (S : Finset ℕ)
    (hS : ∀ j, j ∈ S ↔ j < n ∧ mask j ∧ x j ≠ nan) (hf : ∀ j ∈ S, x j = fin (f j)) :
    maskedMean n mask x = if S = ∅ then nan else fin ((∑ j ∈ S, f j) / S.card) := by
  unfold maskedMean
  simp only
  generalize hw : (List.range n).filter (fun j => decide (mask j ∧ x j ≠ nan)) = w
  have hmem : ∀ j, j ∈ w ↔ j ∈ S := by
    intro j; rw [← hw, hS]; simp only [List.mem_filter, List.mem_range, decide_eq_true_eq]
  have hnd : w.Nodup := by rw [← hw]; exact List.Nodup.filter _ List.nodup_range
  have hSw : S = w.toFinset := by ext j; rw [List.mem_toFinset, hmem]
  have hlen : S.card = w.length := by rw [hSw, List.toFinset_card_of_nodup hnd]
  by_cases he : w = []
  · rw [if_pos he, if_pos]
    rw [hSw, he]; rfl
  · rw [if_neg he, if_neg]
    · have hf' : ∀ j ∈ w, x j = fin (f j) := fun j hj => hf j ((hmem j).mp hj)
      rw [zero_eq, foldl_fin w x f hf' 0, fin_div, zero_add, hlen, hSw, List.sum_toFinset _ hnd]
      have : w.length ≠ 0 := by simpa using he
      exact_mod_cast this
    · intro hS0; apply he
      have : w.length = 0 := by rw [← hlen, hS0]; rfl
      exact List.length_eq_zero_iff.mp this

/-- **C139** (kt′ behind the plane) on a morning row behind the plane with the sun up, the zenith-independent clearness
index is the average of the front solution's over that day's morning rows with 65° < AOI < 80° and a value; NaN when there
is none. -/
theorem gti_back_kt_morning (c : GtiCall) (kt : Series) (p : ℕ) (hz : c.solar_zenith p < 90) (haoi : 90 ≤ c.aoi p)
    (hm : c.solar_azimuth p < 180) (f : ℕ → ℝ) (S : Finset ℕ)
    (hS : ∀ j, j ∈ S ↔ j < c.n ∧ c.date j = c.date p ∧ 65 < c.aoi j ∧ c.aoi j < 80 ∧ c.solar_azimuth j < 180 ∧ kt j ≠ nan)
    (hf : ∀ j ∈ S, kt j = fin (f j)) :
    gtiGte90KtPrime c kt p = if S = ∅ then nan else fin ((∑ j ∈ S, f j) / S.card) := by
  unfold gtiGte90KtPrime
  simp only
  have hna : ¬ 180 < c.solar_azimuth p := by
    intro h; revert hm h; cases c.solar_azimuth p <;> simp; intro h1; linarith
  rw [if_neg (by tauto), if_pos ⟨hz, haoi, hm⟩]
  exact maskedMean_spec _ _ _ f S (fun j => by rw [hS]; tauto) hf

/-- **C139** (kt′ behind the plane) the same in the afternoon. -/
theorem gti_back_kt_afternoon (c : GtiCall) (kt : Series) (p : ℕ) (hz : c.solar_zenith p < 90) (haoi : 90 ≤ c.aoi p)
    (hm : 180 < c.solar_azimuth p) (f : ℕ → ℝ) (S : Finset ℕ)
    (hS : ∀ j, j ∈ S ↔ j < c.n ∧ c.date j = c.date p ∧ 65 < c.aoi j ∧ c.aoi j < 80 ∧ 180 < c.solar_azimuth j ∧ kt j ≠ nan)
    (hf : ∀ j ∈ S, kt j = fin (f j)) :
    gtiGte90KtPrime c kt p = if S = ∅ then nan else fin ((∑ j ∈ S, f j) / S.card) := by
  unfold gtiGte90KtPrime
  simp only
  rw [if_pos ⟨hz, haoi, hm⟩]
  exact maskedMean_spec _ _ _ f S (fun j => by rw [hS]; tauto) hf

/-- A morning in which the sun reaches the plane at 70° before it goes behind it: the clearness index 0.6 of the first sample is used. -/
example := gti_back_kt_morning
  { demoCall with aoi := fun i => if i = 0 then fin 70 else fin 100, solar_azimuth := fun _ => fin 120 } (fun _ => fin 0.6) 1
  (by show (80 : ℝ) < 90; norm_num) (by show (90 : ℝ) ≤ 100; norm_num) (by show (120 : ℝ) < 180; norm_num) (fun _ => 0.6) {0}
  (fun j => by
    simp only [Finset.mem_singleton, demoCall, Fl.ofNat_eq]
    constructor
    · rintro rfl; simp only [if_true, fin_lt]; norm_num
    · rintro ⟨h1, -, -, h4, -⟩
      by_contra hj
      rw [if_neg hj, fin_lt] at h4; norm_num at h4) (fun _ _ => rfl)
example := gti_back_kt_afternoon
  { demoCall with aoi := fun i => if i = 0 then fin 70 else fin 100, solar_azimuth := fun _ => fin 240 } (fun _ => fin 0.6) 1
  (by show (80 : ℝ) < 90; norm_num) (by show (90 : ℝ) ≤ 100; norm_num) (by show (180 : ℝ) < 240; norm_num) (fun _ => 0.6) {0}
  (fun j => by
    simp only [Finset.mem_singleton, demoCall, Fl.ofNat_eq]
    constructor
    · rintro rfl; simp only [if_true, fin_lt]; norm_num
    · rintro ⟨h1, -, -, h4, -⟩
      by_contra hj
      rw [if_neg hj, fin_lt] at h4; norm_num at h4) (fun _ _ => rfl)

/-- **C139** (finding) the DIRINT coefficient behind the plane is looked up with the *front* solution's kt′ of the row
itself, not with the averaged kt′ that gives the DISC part: the DNI is DISC(average kt′) times the coefficient of the row's
own front kt′ (and no stability index). -/
theorem gti_back_dni_formula (c : GtiCall) (kt : Series) (p : ℕ) :
    (gtiGte90 c kt).2.1 p = maximum ((discKn (gtiGte90KtPrime c kt p * ktKtPrimeFactor (gtiAirmass c p))
        (gtiAirmass c p)).1 * extraSpencer (c.doy p) 1370) 0 *
      dirintCoeffs (kt p) (c.solar_zenith p) (tempDewW c.temp_dew p) (fin (-1)) := by
  simp only [gtiGte90, dirintFromDniKtprime, deltaKtPrime, Bool.false_eq_true, if_false, one_eq, neg_fin]

/-- Non-vacuity: a one-row front call returns. -/
example : ∃ o, gtiDirint (fun _ => none)
    { n := 1, poa_global := fun _ => fin 500, aoi := fun _ => fin 30, solar_zenith := fun _ => fin 40,
      solar_azimuth := fun _ => fin 170, doy := fun _ => fin 100, date := fun _ => 0, surface_tilt := fin 30,
      surface_azimuth := fin 180, model := "isotropic" } = .ok o := by
  have hl : pyLower "isotropic" = "isotropic" := by decide +kernel
  refine gti_dirint_returns _ _ 0 Nat.zero_lt_one ?_ (by norm_num) ?_ ?_
  · show (30 : ℝ) < 90; norm_num
  · simp [knownModels, hl]
  · simp [hl]

end Pvlib.Props.GtiFull
end
