import Verif.Model.Temperature

/-! # Properties C51-C54: `pvlib.temperature` (steady-state models and `GenericLinearModel`) -/

noncomputable section
open scoped Classical
open Real
namespace Pvlib.Props.Temperature
open Fl Pvlib.Temperature

/-! ### C51: steady-state models -/

private theorem sapm_fin (G T w a b d R : ℝ) (hR : R ≠ 0) :
    sapmCell (fin G) (fin T) (fin w) (fin a) (fin b) (fin d) (fin R) =
      fin (T + G * Real.exp (a + b * w) + G / R * d) := by
  simp only [sapmCell, sapmCellFromModule, sapmModule, fin_mul, fin_add, exp_fin, fin_div hR]
  congr 1; ring

private theorem pvsyst_fin (G T w uc uv e a : ℝ) (h : uc + uv * w ≠ 0) :
    pvsystCell (fin G) (fin T) (fin w) (fin uc) (fin uv) (fin e) (fin a) =
      fin (T + G * a * (1 - e) / (uc + uv * w)) := by
  simp [pvsystCell, h]

private theorem faiman_fin (G T w u0 u1 : ℝ) (h : u0 + u1 * w ≠ 0) :
    faiman (fin G) (fin T) (fin w) (fin u0) (fin u1) = fin (T + G / (u0 + u1 * w)) := by
  simp [faiman, h]

/-- The steady-state cell temperature models, at given coefficients, as functions of irradiance, air
temperature and wind speed. -/
inductive Steady where
  | sapm (a b deltaT irrad_ref : ℝ)
  | pvsyst (u_c u_v eta alpha : ℝ)
  | faiman (u0 u1 : ℝ)

/-- The pvlib call for each of them. -/
def Steady.cell (m : Steady) (G T w : Fl) : Fl :=
  match m with
  | .sapm a b d R => sapmCell G T w (fin a) (fin b) (fin d) (fin R)
  | .pvsyst uc uv e a => pvsystCell G T w (fin uc) (fin uv) (fin e) (fin a)
  | .faiman u0 u1 => Pvlib.Temperature.faiman G T w (fin u0) (fin u1)

/-- Physically sensible coefficients: wind cools, heat losses are positive, efficiency below one. -/
def Steady.Ok : Steady → Prop
  | .sapm _ b d R => b ≤ 0 ∧ 0 ≤ d ∧ 0 < R
  | .pvsyst uc uv e a => 0 < uc ∧ 0 ≤ uv ∧ e < 1 ∧ 0 < a
  | .faiman u0 u1 => 0 < u0 ∧ 0 ≤ u1

/-- **C51**: every steady-state model is "air temperature plus irradiance times a thermal resistance that depends on
the wind only"; the resistance is positive and does not grow with the wind. -/
theorem steady_resistance (m : Steady) (hm : m.Ok) :
    ∃ ρ : ℝ → ℝ, (∀ w, 0 ≤ w → 0 < ρ w) ∧ (∀ w w', 0 ≤ w → w ≤ w' → ρ w' ≤ ρ w) ∧
      ∀ G T w : ℝ, 0 ≤ w → m.cell (fin G) (fin T) (fin w) = fin (T + G * ρ w) := by
  cases m with
  | sapm a b d R =>
    obtain ⟨hb, hd, hR⟩ := hm
    refine ⟨fun w => Real.exp (a + b * w) + d / R, fun w hw => by positivity, fun w w' hw h => ?_,
      fun G T w hw => ?_⟩
    · have : Real.exp (a + b * w') ≤ Real.exp (a + b * w) := Real.exp_le_exp.mpr (by nlinarith)
      linarith
    · simp only [Steady.cell, sapm_fin _ _ _ _ _ _ _ hR.ne']
      congr 1; ring
  | pvsyst uc uv e a =>
    obtain ⟨hc, hv, he, ha⟩ := hm
    have h1 : 0 < 1 - e := by linarith
    refine ⟨fun w => a * (1 - e) / (uc + uv * w), fun w hw => by positivity, fun w w' hw h => ?_,
      fun G T w hw => ?_⟩
    · have h2 : 0 < uc + uv * w := by positivity
      exact div_le_div_of_nonneg_left (by positivity) h2 (by nlinarith)
    · have h2 : uc + uv * w ≠ 0 := by positivity
      simp only [Steady.cell, pvsyst_fin _ _ _ _ _ _ _ h2]
      congr 1; ring
  | faiman u0 u1 =>
    obtain ⟨hc, hv⟩ := hm
    refine ⟨fun w => 1 / (u0 + u1 * w), fun w hw => by positivity, fun w w' hw h => ?_,
      fun G T w hw => ?_⟩
    · have h2 : 0 < u0 + u1 * w := by positivity
      exact div_le_div_of_nonneg_left (by positivity) h2 (by nlinarith)
    · have h2 : u0 + u1 * w ≠ 0 := by positivity
      simp only [Steady.cell, faiman_fin _ _ _ _ _ h2]
      congr 1; ring

example : (Steady.sapm (-3.47) (-0.0594) 3 1000).Ok ∧ (Steady.pvsyst 29 0 0.1 0.9).Ok ∧
    (Steady.faiman 25 6.84).Ok := by norm_num [Steady.Ok]

/-- **C51**: without irradiance every model returns the air temperature; with irradiance the cell is warmer. -/
theorem steady_no_sun (m : Steady) (hm : m.Ok) (T w : ℝ) (hw : 0 ≤ w) :
    m.cell (fin 0) (fin T) (fin w) = fin T ∧
    ∀ G, 0 < G → ∃ r, m.cell (fin G) (fin T) (fin w) = fin r ∧ T < r := by
  obtain ⟨ρ, h0, _, h⟩ := steady_resistance m hm
  refine ⟨by simp [h 0 T w hw], fun G hG => ⟨_, h G T w hw, ?_⟩⟩
  have := h0 w hw
  nlinarith [mul_pos hG this]

example := steady_no_sun (.faiman 25 6.84) (by norm_num [Steady.Ok]) 20 1 (by norm_num)

/-- **C51**: more irradiance means a hotter cell, more wind a cooler one (for non-negative irradiance), and the air
temperature shifts the result one for one. -/
theorem steady_mono (m : Steady) (hm : m.Ok) (G G' T T' w w' : ℝ) (hG : 0 ≤ G) (hGG : G ≤ G') (hT : T ≤ T')
    (hw : 0 ≤ w) (hww : w ≤ w') :
    m.cell (fin G) (fin T) (fin w') ≤ m.cell (fin G') (fin T') (fin w) ∧
    m.cell (fin G) (fin T') (fin w) = m.cell (fin G) (fin T) (fin w) + fin (T' - T) := by
  obtain ⟨ρ, h0, h1, h⟩ := steady_resistance m hm
  have ha := h0 w hw
  have hb := h1 w w' hw hww
  rw [h _ _ _ hw, h _ _ _ hw, h _ _ _ hw, h _ _ _ (hw.trans hww)]
  refine ⟨?_, by simp; ring⟩
  simp only [fin_le]
  have : G * ρ w' ≤ G' * ρ w := mul_le_mul hGG hb (h0 w' (hw.trans hww)).le (hG.trans hGG)
  linarith

example := steady_mono (.pvsyst 29 0 0.1 0.9) (by norm_num [Steady.Ok]) 500 800 20 25 1 3 (by norm_num) (by norm_num) (by norm_num)
  (by norm_num) (by norm_num)

/-- **C51**: the two documented coefficient values that matter to a user: `sapm_cell` equals the module temperature
plus `deltaT` at the reference irradiance, and at zero `deltaT` it is the module temperature. -/
theorem sapm_cell_at_reference (T w a b d R : ℝ) (hR : R ≠ 0) :
    sapmCell (fin R) (fin T) (fin w) (fin a) (fin b) (fin d) (fin R) =
      sapmModule (fin R) (fin T) (fin w) (fin a) (fin b) + fin d ∧
    ∀ G, sapmCell (fin G) (fin T) (fin w) (fin a) (fin b) (fin 0) (fin R) =
      sapmModule (fin G) (fin T) (fin w) (fin a) (fin b) := by
  refine ⟨?_, fun G => ?_⟩
  · rw [sapm_fin _ _ _ _ _ _ _ hR, div_self hR]
    simp [sapmModule]; ring
  · rw [sapm_fin _ _ _ _ _ _ _ hR]
    simp [sapmModule]; ring

example := sapm_cell_at_reference 20 1 (-3.47) (-0.0594) 3 1000 (by norm_num)

/-- **C51**: missing data propagate: a NaN irradiance, air temperature or wind speed never yields a number. -/
theorem steady_nan (m : Steady) (G T w : Fl) (h : G = nan ∨ T = nan ∨ w = nan) :
    m.cell G T w = nan := by
  cases m <;> rcases h with rfl | rfl | rfl <;>
    simp [Steady.cell, sapmCell, sapmCellFromModule, sapmModule, pvsystCell, Pvlib.Temperature.faiman]

example := steady_nan (.faiman 25 6.84) (fin 800) nan (fin 1) (Or.inr (Or.inl rfl))

/-! ### C52: `faiman_rad` and `ross` -/

/-- **C52**: without a measured downwelling irradiance `faiman_rad` is exactly `faiman`, for every input. -/
theorem faimanRad_none (sigma G T w u0 u1 sv em : Fl) :
    faimanRad sigma G T w none u0 u1 sv em = faiman G T w u0 u1 := by
  have : G - (0 : Fl) = G := by cases G <;> simp
  simp [faimanRad, faiman] at *
  rw [this]

/-- **C52**: `faiman_rad` returns the temperature at which the heat balance closes: convective loss equals absorbed
irradiance minus net infrared emission of a surface at air temperature. -/
theorem faimanRad_balance (sigma G T w ir u0 u1 sv em r : ℝ) (h : u0 + u1 * w ≠ 0) :
    faimanRad (fin sigma) (fin G) (fin T) (fin w) (some (fin ir)) (fin u0) (fin u1) (fin sv) (fin em) = fin r ↔
      (r - T) * (u0 + u1 * w) + em * sv * (sigma * (T + 273.15) ^ 4 - ir) = G := by
  have h1 : ∀ x : ℝ, x - -273.15 = x + 273.15 := fun x => by ring
  simp only [faimanRad, ofScientific_eq, neg_fin, fin_sub, fin_pow, fin_mul, fin_add, fin_div h, fin_inj, h1]
  constructor
  · rintro rfl; field_simp; ring
  · rintro rfl; field_simp; ring

example : (25 : ℝ) + 6.84 * 1 ≠ 0 := by norm_num

/-- **C52**: a sky that radiates exactly as much as the panel at air temperature has no effect; a colder sky cools. -/
theorem faimanRad_sky (sigma G T w ir u0 u1 sv em : ℝ) (h : 0 < u0 + u1 * w) (he : 0 ≤ em) (hs : 0 ≤ sv) :
    faimanRad (fin sigma) (fin G) (fin T) (fin w) (some (fin (sigma * (T + 273.15) ^ 4))) (fin u0) (fin u1)
        (fin sv) (fin em) = faiman (fin G) (fin T) (fin w) (fin u0) (fin u1) ∧
    (ir ≤ sigma * (T + 273.15) ^ 4 →
      faimanRad (fin sigma) (fin G) (fin T) (fin w) (some (fin ir)) (fin u0) (fin u1) (fin sv) (fin em) ≤
        faiman (fin G) (fin T) (fin w) (fin u0) (fin u1)) := by
  have h1 : ∀ x : ℝ, x - -273.15 = x + 273.15 := fun x => by ring
  rw [faiman_fin _ _ _ _ _ h.ne']
  refine ⟨?_, fun hir => ?_⟩
  · rw [faimanRad_balance _ _ _ _ _ _ _ _ _ _ h.ne']
    field_simp; ring
  · simp only [faimanRad, ofScientific_eq, neg_fin, fin_sub, fin_pow, fin_mul, fin_add, fin_div h.ne', fin_le, h1]
    have : 0 ≤ em * sv * (sigma * (T + 273.15) ^ 4 - ir) := by
      have := sub_nonneg.mpr hir; positivity
    have : (G - em * sv * (sigma * (T + 273.15) ^ 4 - ir)) / (u0 + u1 * w) ≤ G / (u0 + u1 * w) :=
      div_le_div_of_nonneg_right (by linarith) h.le
    linarith

example := faimanRad_sky 5.67e-8 800 20 1 300 25 6.84 1 0.88 (by norm_num) (by norm_num) (by norm_num)

/-- **C52**: `ross` accepts exactly one of `noct` and `k`, and raises ValueError otherwise. -/
theorem ross_contract (G T : Fl) (noct k : Option Fl) :
    ((∃ r, ross G T noct k = .ok r) ↔ (noct.isSome ≠ k.isSome)) ∧
    (noct.isSome = k.isSome → ross G T noct k = .error .valueError) := by
  cases noct <;> cases k <;> simp [ross]

/-- **C52**: the two parametrisations of `ross` agree when `k` is the Ross coefficient of the NOCT, and at NOCT
conditions (800 W/m2, 20 C) the cell is at the NOCT. -/
theorem ross_noct (noct G T : ℝ) :
    ross (fin G) (fin T) (some (fin noct)) none = ross (fin G) (fin T) none (some (fin ((noct - 20) / 800))) ∧
    ross (fin 800) (fin 20) (some (fin noct)) none = .ok (fin noct) := by
  constructor <;> simp [ross] <;> ring

/-! ### C53: `noct_sam` -/

/-- The mounting standoff table of SAM: inches of standoff to degrees added to the NOCT. -/
def standoffSpec (x : ℝ) : ℝ :=
  if x ≤ 0 then 0 else if x < 0.5 then 18 else if x < 1.5 then 11 else if x < 2.5 then 6
  else if x ≤ 3.5 then 2 else 0

private theorem adj_fin (x : ℝ) : adjStandoff (fin x) = fin (standoffSpec x) := by
  simp only [adjStandoff, standoffSpec, ofScientific_eq, ofNat_eq, zero_eq, fin_le, fin_lt]
  norm_num
  grind

/-- **C53**: the standoff adjustment is the documented table (every real standoff falls in exactly one row), and a
missing standoff adds nothing. -/
theorem standoff_table (x : ℝ) :
    adjStandoff (fin x) = fin (standoffSpec x) ∧ adjStandoff nan = fin 0 ∧
    (0 < x → ∀ y, x ≤ y → standoffSpec y ≤ standoffSpec x) := by
  refine ⟨adj_fin x, by simp [adjStandoff], fun hx y hy => ?_⟩
  unfold standoffSpec
  grind

/-- **C53**: `noct_sam` accepts array heights 1 and 2 (storeys) and nothing else. -/
theorem noctSam_contract (G T w n e : Fl) (eff : Option Fl) (ta h m : Fl) :
    ((∃ r, noctSam G T w n e eff ta h m = .ok r) ↔ (h = fin 1 ∨ h = fin 2)) ∧
    (¬ (h = fin 1 ∨ h = fin 2) → noctSam G T w n e eff ta h m = .error .valueError) := by
  have h1 : ∀ y : ℝ, eqv h (fin y) ↔ h = fin y := by
    intro y; cases h <;> simp [eqv]
  unfold noctSam
  simp only [one_eq, ofNat_eq, h1]
  by_cases ha : h = fin 1
  · simp [ha]
  · by_cases hb : h = fin 2
    · simp [hb]
    · simp [ha, hb]

private theorem noctSam_fin (G T w n e ta m : ℝ) (hta : ta ≠ 0) (k : ℝ) (H : Fl)
    (hk : (H = fin 1 ∧ k = 0.51) ∨ (H = fin 2 ∧ k = 0.61)) (hw : 5.7 + 3.8 * (k * w) ≠ 0) :
    noctSam (fin G) (fin T) (fin w) (fin n) (fin e) none (fin ta) H (fin m) =
      .ok (fin (T + G / 800 * (n + standoffSpec m - 20) * (1 - e / ta) * (9.5 / (5.7 + 3.8 * (k * w))))) := by
  have h8 : (800 : ℝ) ≠ 0 := by norm_num
  rcases hk with ⟨rfl, rfl⟩ | ⟨rfl, rfl⟩
  · simp only [noctSam, one_eq, ofNat_eq, ofScientific_eq, eqv_fin, if_true, adj_fin, fin_mul, fin_add, fin_sub,
      mul_one, fin_div hta, fin_div h8, fin_div hw]
  · have : ¬ ((2 : ℝ) = 1) := by norm_num
    simp only [noctSam, one_eq, ofNat_eq, ofScientific_eq, eqv_fin, this, if_true, if_false, adj_fin, fin_mul,
      fin_add, fin_sub, mul_one, fin_div hta, fin_div h8, fin_div hw]

/-- **C53**: at NOCT test conditions (800 W/m2, 20 C air, 1 m/s at the module, no electrical load, rack mounting) a
one-storey array runs at its NOCT, whatever the optical constant. -/
theorem noctSam_at_noct (noct ta : ℝ) (hta : ta ≠ 0) :
    noctSam (fin 800) (fin 20) (fin (1 / 0.51)) (fin noct) (fin 0) none (fin ta) = .ok (fin noct) := by
  have := noctSam_fin 800 20 (1 / 0.51) noct 0 ta 4 hta 0.51 (fin 1) (Or.inl ⟨rfl, rfl⟩) (by norm_num)
  rw [show (1 : Fl) = fin 1 from rfl, show (4 : Fl) = fin 4 from rfl] at *
  rw [this]
  norm_num [standoffSpec]

example := noctSam_at_noct 45 0.9 (by norm_num)

/-- **C53**: without sun the cell is at air temperature; the excess over air temperature is proportional to the
irradiance, non-negative, and does not grow with the wind or with the efficiency. -/
theorem noctSam_laws (G T w w' n e e' ta m : ℝ) (H : Fl) (hH : H = fin 1 ∨ H = fin 2) (hG : 0 ≤ G)
    (hw : 0 ≤ w) (hww : w ≤ w') (hn : 20 ≤ n) (hta : 0 < ta) (hee : e ≤ e') (he : e' ≤ ta) :
    noctSam (fin 0) (fin T) (fin w) (fin n) (fin e) none (fin ta) H (fin m) = .ok (fin T) ∧
    ∃ r r', noctSam (fin G) (fin T) (fin w) (fin n) (fin e) none (fin ta) H (fin m) = .ok (fin r) ∧
      noctSam (fin G) (fin T) (fin w') (fin n) (fin e') none (fin ta) H (fin m) = .ok (fin r') ∧
      T ≤ r' ∧ r' ≤ r ∧
      ∀ c : ℝ, noctSam (fin (c * G)) (fin T) (fin w) (fin n) (fin e) none (fin ta) H (fin m) =
        .ok (fin (T + c * (r - T))) := by
  obtain ⟨k, hk, hk0⟩ : ∃ k : ℝ, ((H = fin 1 ∧ k = 0.51) ∨ (H = fin 2 ∧ k = 0.61)) ∧ 0 < k := by
    rcases hH with rfl | rfl
    · exact ⟨0.51, by simp, by norm_num⟩
    · exact ⟨0.61, by simp, by norm_num⟩
  have hd : 0 < 5.7 + 3.8 * (k * w) := by positivity
  have hd' : 0 < 5.7 + 3.8 * (k * w') := by have := hw.trans hww; positivity
  have h0 : 0 ≤ standoffSpec m := by unfold standoffSpec; split_ifs <;> norm_num
  have ht : ∀ x, x ≤ ta → 0 ≤ 1 - x / ta := fun x hx => by
    have := (div_le_one hta).mpr hx; linarith
  have A : 0 ≤ G / 800 * (n + standoffSpec m - 20) := by
    have : 0 ≤ n + standoffSpec m - 20 := by linarith
    positivity
  have B : 9.5 / (5.7 + 3.8 * (k * w')) ≤ 9.5 / (5.7 + 3.8 * (k * w)) :=
    div_le_div_of_nonneg_left (by norm_num) hd (by nlinarith)
  have C : 1 - e' / ta ≤ 1 - e / ta := by
    have := div_le_div_of_nonneg_right hee hta.le; linarith
  have hB : 0 < 9.5 / (5.7 + 3.8 * (k * w')) := by positivity
  refine ⟨?_, _, _, noctSam_fin G T w n e ta m hta.ne' k H hk hd.ne',
    noctSam_fin G T w' n e' ta m hta.ne' k H hk hd'.ne', ?_, ?_, fun c => ?_⟩
  · rw [noctSam_fin _ _ _ _ _ _ _ hta.ne' k H hk hd.ne']; simp
  · have := mul_nonneg (mul_nonneg A (ht e' he)) hB.le
    linarith
  · have := mul_le_mul (mul_le_mul_of_nonneg_left C A) B hB.le (mul_nonneg A (ht e (hee.trans he)))
    linarith
  · rw [noctSam_fin _ _ _ _ _ _ _ hta.ne' k H hk hd.ne']
    congr 2; ring

example := noctSam_laws 800 20 1 3 45 0.1 0.2 0.9 1 (fin 2) (Or.inr rfl) (by norm_num) (by norm_num) (by norm_num) (by norm_num)
  (by norm_num) (by norm_num) (by norm_num)

example : (20 : ℝ) ≤ 45 ∧ (0 : ℝ) < 0.9 ∧ (0.1 : ℝ) ≤ 0.2 ∧ (0.2 : ℝ) ≤ 0.9 := by norm_num

/-- **C53**: a two-storey array sees more wind, so it is never hotter than the same one-storey array. -/
theorem noctSam_height (G T w n e ta m : ℝ) (hG : 0 ≤ G) (hw : 0 ≤ w) (hn : 20 ≤ n) (hta : 0 < ta) (he : e ≤ ta) :
    ∃ r₁ r₂, noctSam (fin G) (fin T) (fin w) (fin n) (fin e) none (fin ta) (fin 1) (fin m) = .ok (fin r₁) ∧
      noctSam (fin G) (fin T) (fin w) (fin n) (fin e) none (fin ta) (fin 2) (fin m) = .ok (fin r₂) ∧ r₂ ≤ r₁ := by
  have hd : 0 < 5.7 + 3.8 * (0.51 * w) := by positivity
  have hd' : 0 < 5.7 + 3.8 * (0.61 * w) := by positivity
  refine ⟨_, _, noctSam_fin G T w n e ta m hta.ne' 0.51 _ (Or.inl ⟨rfl, rfl⟩) hd.ne',
    noctSam_fin G T w n e ta m hta.ne' 0.61 _ (Or.inr ⟨rfl, rfl⟩) hd'.ne', ?_⟩
  have h0 : 0 ≤ standoffSpec m := by unfold standoffSpec; split_ifs <;> norm_num
  have ht : 0 ≤ 1 - e / ta := by
    have := (div_le_one hta).mpr he; linarith
  have A : 0 ≤ G / 800 * (n + standoffSpec m - 20) := by
    have : 0 ≤ n + standoffSpec m - 20 := by linarith
    positivity
  have B : 9.5 / (5.7 + 3.8 * (0.61 * w)) ≤ 9.5 / (5.7 + 3.8 * (0.51 * w)) :=
    div_le_div_of_nonneg_left (by norm_num) hd (by nlinarith)
  have := mul_le_mul_of_nonneg_left B (mul_nonneg A ht)
  linarith

example := noctSam_height 800 20 1 45 0.2 0.9 1 (by norm_num) (by norm_num) (by norm_num) (by norm_num) (by norm_num)

/-- **C53**: giving `effective_irradiance = poa_global` (non-zero) is the same as leaving it out. -/
theorem noctSam_effective (G : ℝ) (hG : G ≠ 0) (T w n e ta h m : Fl) :
    noctSam (fin G) T w n e (some (fin G)) ta h m = noctSam (fin G) T w n e none ta h m := by
  simp [noctSam, fin_div hG, div_self hG]

example := noctSam_effective 800 (by norm_num) (fin 20) (fin 1) (fin 45) (fin 0.2) (fin 0.9) (fin 1) (fin 1)

/-! ### C54: `GenericLinearModel` as a state machine -/

/-- The state of the object after a history of `use_*` calls. -/
def run (eta alpha : Fl) (ops : List GLM.Op) : GLM := ops.foldl GLM.step (GLM.init eta alpha)

/-- The efficiency given by a call, if any. -/
def opEta : GLM.Op → Option Fl
  | .pvsyst _ _ e _ => e
  | .noctSam _ e _ => e
  | _ => none
/-- The absorptance given by a call, if any. -/
def opAlpha : GLM.Op → Option Fl
  | .pvsyst _ _ _ a => a
  | .noctSam _ _ a => a
  | _ => none
/-- "The last value given, otherwise the initial one". -/
def lastGiven (x : Fl) (l : List (Option Fl)) : Fl := l.foldl (fun x o => o.getD x) x

/-- **C54**: after any history, the object's efficiency and absorptance are the last ones given (to the constructor,
`use_pvsyst` or `use_noct_sam`). -/
theorem glm_parameters (eta alpha : Fl) (ops : List GLM.Op) :
    (run eta alpha ops).eta = lastGiven eta (ops.map opEta) ∧
    (run eta alpha ops).alpha = lastGiven alpha (ops.map opAlpha) := by
  have : ∀ (s : GLM), (ops.foldl GLM.step s).eta = lastGiven s.eta (ops.map opEta) ∧
      (ops.foldl GLM.step s).alpha = lastGiven s.alpha (ops.map opAlpha) := by
    induction ops with
    | nil => intro s; simp [lastGiven]
    | cons o os ih =>
      intro s
      simp only [List.foldl_cons, List.map_cons, lastGiven] at *
      have h1 : (s.step o).eta = (opEta o).getD s.eta := by cases o <;> rfl
      have h2 : (s.step o).alpha = (opAlpha o).getD s.alpha := by cases o <;> rfl
      rw [(ih _).1, (ih _).2, h1, h2]
      exact ⟨rfl, rfl⟩
  exact this (GLM.init eta alpha)

/-- **C54**: before any `use_*` call the object yields NaN for every input. -/
theorem glm_fresh (eta alpha G T w : Fl) : (run eta alpha []).call G T w = nan := by
  simp [run, GLM.init, GLM.call, genericLinear]

/-- **C54** (`use_faiman`): after any history ending in `use_faiman(u0, u1)`, calling the object is calling `faiman`
with those coefficients, and `to_faiman` gives them back. -/
theorem glm_faiman (eta alpha : Fl) (ops : List GLM.Op) (u0 u1 e a G T w : ℝ)
    (he : (run eta alpha ops).eta = fin e) (ha : (run eta alpha ops).alpha = fin a) (hne : a ≠ e)
    (hw : u0 + u1 * w ≠ 0) :
    (run eta alpha (ops ++ [.faiman (fin u0) (fin u1)])).call (fin G) (fin T) (fin w) =
      faiman (fin G) (fin T) (fin w) (fin u0) (fin u1) ∧
    (run eta alpha (ops ++ [.faiman (fin u0) (fin u1)])).toFaiman = (fin u0, fin u1) := by
  have hd : a - e ≠ 0 := sub_ne_zero.mpr hne
  have hd' : u0 * (a - e) + u1 * (a - e) * w ≠ 0 := by
    rw [show u0 * (a - e) + u1 * (a - e) * w = (u0 + u1 * w) * (a - e) by ring]
    exact mul_ne_zero hw hd
  simp only [run] at he ha
  simp only [run, List.foldl_append, List.foldl_cons, List.foldl_nil, GLM.step, GLM.useFaiman, GLM.call,
    GLM.toFaiman, genericLinear, he, ha, Option.getD_none, fin_sub, fin_mul, fin_add, fin_div hd', fin_div hd,
    faiman_fin _ _ _ _ _ hw]
  constructor
  · congr 1; field_simp
  · congr 1 <;> (congr 1; field_simp)

example := glm_faiman (fin 0.19) (fin 0.88) [.pvsyst (fin 29) (fin 1) (some (fin 0.2)) none] 25 6.84 0.2 0.88 800 20 1 rfl rfl
  (by norm_num) (by norm_num)

/-- **C54** (`use_pvsyst`): after any history ending in `use_pvsyst`, calling the object is calling `pvsyst_cell` with
the same coefficients and the object's efficiency and absorptance; `to_pvsyst` gives the coefficients back. -/
theorem glm_pvsyst (eta alpha : Fl) (ops : List GLM.Op) (oe oa : Option Fl) (uc uv e a G T w : ℝ)
    (he : (run eta alpha (ops ++ [.pvsyst (fin uc) (fin uv) oe oa])).eta = fin e)
    (ha : (run eta alpha (ops ++ [.pvsyst (fin uc) (fin uv) oe oa])).alpha = fin a)
    (hne : a ≠ e) (h0 : a ≠ 0) (h1 : e ≠ 1) (hw : uc + uv * w ≠ 0) :
    (run eta alpha (ops ++ [.pvsyst (fin uc) (fin uv) oe oa])).call (fin G) (fin T) (fin w) =
      pvsystCell (fin G) (fin T) (fin w) (fin uc) (fin uv) (fin e) (fin a) ∧
    (run eta alpha (ops ++ [.pvsyst (fin uc) (fin uv) oe oa])).toPvsyst = (fin uc, fin uv, fin e, fin a) := by
  have hd : a - e ≠ 0 := sub_ne_zero.mpr hne
  have h1' : 1 - e ≠ 0 := sub_ne_zero.mpr h1.symm
  have hp : a * (1 - e) ≠ 0 := mul_ne_zero h0 h1'
  have hr : (a - e) / (a * (1 - e)) ≠ 0 := div_ne_zero hd hp
  have hd' : uc * ((a - e) / (a * (1 - e))) + uv * ((a - e) / (a * (1 - e))) * w ≠ 0 := by
    rw [show uc * ((a - e) / (a * (1 - e))) + uv * ((a - e) / (a * (1 - e))) * w =
      (uc + uv * w) * ((a - e) / (a * (1 - e))) by ring]
    exact mul_ne_zero hw hr
  simp only [run, List.foldl_append, List.foldl_cons, List.foldl_nil, GLM.step, GLM.usePvsyst] at he ha
  simp only [run, List.foldl_append, List.foldl_cons, List.foldl_nil, GLM.step, GLM.usePvsyst, GLM.call,
    GLM.toPvsyst, genericLinear, he, ha, Option.getD_none, one_eq, fin_sub, fin_mul, fin_add, fin_div hp,
    fin_div hr, fin_div hd', pvsyst_fin _ _ _ _ _ _ _ hw]
  constructor
  · congr 1; field_simp
  · rw [mul_div_cancel_right₀ _ hr, mul_div_cancel_right₀ _ hr]

example := glm_pvsyst (fin 0.19) (fin 0.88) [.faiman (fin 25) (fin 6.84)] (some (fin 0.2)) none 29 1 0.2 0.88 800 20 1 rfl rfl
  (by norm_num) (by norm_num) (by norm_num) (by norm_num)

/-- **C54** (`use_noct_sam`): after any history ending in `use_noct_sam`, calling the object is calling `noct_sam` for
a rack-mounted one-storey array with the object's efficiency and absorptance; `to_noct_sam` gives the NOCT back. -/
theorem glm_noct_sam (eta alpha : Fl) (ops : List GLM.Op) (oe oa : Option Fl) (n e a G T w : ℝ)
    (he : (run eta alpha (ops ++ [.noctSam (fin n) oe oa])).eta = fin e)
    (ha : (run eta alpha (ops ++ [.noctSam (fin n) oe oa])).alpha = fin a)
    (h0 : a ≠ 0) (hn : n ≠ 20) (hw : 5.7 + 3.8 * (0.51 * w) ≠ 0) :
    .ok ((run eta alpha (ops ++ [.noctSam (fin n) oe oa])).call (fin G) (fin T) (fin w)) =
      noctSam (fin G) (fin T) (fin w) (fin n) (fin e) none (fin a) ∧
    (run eta alpha (ops ++ [.noctSam (fin n) oe oa])).toNoctSam = (fin n, fin e, fin a) := by
  have hd : n - 20 ≠ 0 := sub_ne_zero.mpr hn
  have hU : 800 * a / (n - 20) ≠ 0 := div_ne_zero (by simpa using h0) hd
  have h51 : (0.51 : ℝ) ≠ 0 := by norm_num
  have hw' : (0.6 : ℝ) + 0.4 * 0.51 * w ≠ 0 := by
    intro h; apply hw; linarith
  have hd' : 800 * a / (n - 20) * 0.6 + 800 * a / (n - 20) * 0.4 * 0.51 * w ≠ 0 := by
    rw [show 800 * a / (n - 20) * 0.6 + 800 * a / (n - 20) * 0.4 * 0.51 * w =
      800 * a / (n - 20) * (0.6 + 0.4 * 0.51 * w) by ring]
    exact mul_ne_zero hU hw'
  have hs : 800 * a / (n - 20) * 0.6 + 800 * a / (n - 20) * 0.4 * 0.51 / 0.51 = 800 * a / (n - 20) := by
    rw [mul_div_cancel_right₀ _ h51]; ring
  have hns := noctSam_fin G T w n e a 4 h0 0.51 (fin 1) (Or.inl ⟨rfl, rfl⟩) hw
  simp only [run, List.foldl_append, List.foldl_cons, List.foldl_nil, GLM.step, GLM.useNoctSam] at he ha
  rw [show (1 : Fl) = fin 1 from rfl, show (4 : Fl) = fin 4 from rfl, hns]
  simp only [run, List.foldl_append, List.foldl_cons, List.foldl_nil, GLM.step, GLM.useNoctSam, GLM.call,
    GLM.toNoctSam, genericLinear, he, ha, Option.getD_none, ofNat_eq, ofScientific_eq, fin_sub, fin_mul, fin_add,
    fin_div hd, fin_div h51, hs, fin_div hU]
  rw [fin_div hd']
  have hst : standoffSpec 4 = 0 := by norm_num [standoffSpec]
  constructor
  · rw [hst, fin_add]
    congr 2
    rw [show 800 * a / (n - 20) * 0.6 + 800 * a / (n - 20) * 0.4 * 0.51 * w =
      800 * a / (n - 20) * (0.6 + 0.4 * 0.51 * w) by ring,
      show (5.7 : ℝ) + 3.8 * (0.51 * w) = 9.5 * (0.6 + 0.4 * 0.51 * w) by ring]
    field_simp
    ring
  · congr 1
    rw [div_div_eq_mul_div, mul_div_cancel_left₀ _ (mul_ne_zero (by norm_num) h0)]
    simp

example := glm_noct_sam (fin 0.19) (fin 0.88) [.faiman (fin 25) (fin 6.84)] none (some (fin 0.9)) 45 0.19 0.9 800 20 1 rfl rfl
  (by norm_num) (by norm_num) (by norm_num)

/-- **C54** (`use_sapm`): after any history ending in `use_sapm(a, b, lo, hi)`, the object agrees with `sapm_module` at
the two wind speeds of the fit, and `to_sapm` with the same fit speeds gives `a` and `b` back. -/
theorem glm_sapm (eta alpha : Fl) (ops : List GLM.Op) (a b lo hi e al G T : ℝ) (hlo : lo ≠ hi)
    (he : (run eta alpha ops).eta = fin e) (ha : (run eta alpha ops).alpha = fin al) (hne : al ≠ e) :
    (∀ w, w = lo ∨ w = hi →
      (run eta alpha (ops ++ [.sapm (fin a) (fin b) (fin lo) (fin hi)])).call (fin G) (fin T) (fin w) =
        sapmModule (fin G) (fin T) (fin w) (fin a) (fin b)) ∧
    (run eta alpha (ops ++ [.sapm (fin a) (fin b) (fin lo) (fin hi)])).toSapm (fin lo) (fin hi) = (fin a, fin b) := by
  have hd : al - e ≠ 0 := sub_ne_zero.mpr hne
  have hl : hi - lo ≠ 0 := sub_ne_zero.mpr hlo.symm
  have hE1 := Real.exp_pos (a + b * lo)
  have hE2 := Real.exp_pos (a + b * hi)
  set u1 := 1 / Real.exp (a + b * lo) with hu1
  set u2 := 1 / Real.exp (a + b * hi) with hu2
  have p1 : 0 < u1 := by positivity
  have p2 : 0 < u2 := by positivity
  set d := (u2 - u1) / (hi - lo) with hdd
  have hdu : d * (hi - lo) = u2 - u1 := div_mul_cancel₀ _ hl
  have e1 : u1 - d * lo + d * lo = u1 := by ring
  have e2 : u1 - d * lo + d * hi = u2 := by linarith
  simp only [run] at he ha
  have hs : (run eta alpha (ops ++ [.sapm (fin a) (fin b) (fin lo) (fin hi)])) =
      { (run eta alpha ops) with u_const := fin ((u1 - d * lo) * (al - e)), du_wind := fin (d * (al - e)) } := by
    simp only [run, List.foldl_append, List.foldl_cons, List.foldl_nil, GLM.step, GLM.useSapm, he, ha, one_eq,
      fin_sub, fin_mul, fin_add, exp_fin, fin_div hE1.ne', fin_div hE2.ne', fin_div hl]
    rfl
  rw [hs]
  constructor
  · rintro w hw
    have key : ∃ u, 0 < u ∧ u1 - d * lo + d * w = u ∧ 1 / u = Real.exp (a + b * w) := by
      rcases hw with rfl | rfl
      · exact ⟨u1, p1, e1, by rw [hu1]; simp⟩
      · exact ⟨u2, p2, e2, by rw [hu2]; simp⟩
    obtain ⟨u, hu, h1, h2⟩ := key
    have h3 : (u1 - d * lo) * (al - e) + d * (al - e) * w = u * (al - e) := by rw [← h1]; ring
    have h4 : u * (al - e) ≠ 0 := mul_ne_zero hu.ne' hd
    simp only [GLM.call, genericLinear, run, he, ha, Option.getD_none, fin_sub, fin_mul, fin_add, h3,
      fin_div h4, sapmModule, exp_fin, ← h2]
    congr 1
    field_simp
    ring
  · simp only [GLM.toSapm, run, he, ha, fin_sub, fin_mul, fin_div hd, mul_div_cancel_right₀ _ hd, fin_add, e1, e2,
      log_fin p1, log_fin p2, fin_div hl, neg_fin]
    have l1 : Real.log u1 = -(a + b * lo) := by rw [hu1, Real.log_div one_ne_zero hE1.ne', Real.log_one, Real.log_exp]; ring
    have l2 : Real.log u2 = -(a + b * hi) := by rw [hu2, Real.log_div one_ne_zero hE2.ne', Real.log_one, Real.log_exp]; ring
    have hb : -((Real.log u2 - Real.log u1) / (hi - lo)) = b := by
      rw [l1, l2]; field_simp; ring
    rw [hb, l1]
    congr 2; ring

example := glm_sapm (fin 0.19) (fin 0.88) [.faiman (fin 25) (fin 6.84)] (-3.47) (-0.0594) 1.4 5.4 0.19 0.88 800 20 (by norm_num)
  rfl rfl (by norm_num)

/-- **C54** (conversions out): whatever the history, `faiman` with the coefficients of `to_faiman`, `pvsyst_cell` with
those of `to_pvsyst`, `noct_sam` with that of `to_noct_sam` at 1 m/s of wind at the module, and `sapm_module` with
those of `to_sapm` at the fit speeds, all reproduce the object. -/
theorem glm_conversions (s : GLM) (uc du e a : ℝ) (hs : s = ⟨fin uc, fin du, fin e, fin a⟩) (hne : a ≠ e)
    (G T w : ℝ) (hw : uc + du * w ≠ 0) :
    faiman (fin G) (fin T) (fin w) s.toFaiman.1 s.toFaiman.2 = s.call (fin G) (fin T) (fin w) ∧
    (a ≠ 0 → e ≠ 1 →
      pvsystCell (fin G) (fin T) (fin w) s.toPvsyst.1 s.toPvsyst.2.1 s.toPvsyst.2.2.1 s.toPvsyst.2.2.2 =
        s.call (fin G) (fin T) (fin w)) ∧
    (a ≠ 0 → w = 1 / 0.51 →
      noctSam (fin G) (fin T) (fin w) s.toNoctSam.1 s.toNoctSam.2.1 none s.toNoctSam.2.2 =
        .ok (s.call (fin G) (fin T) (fin w))) ∧
    (∀ lo hi : ℝ, lo ≠ hi → 0 < (uc + du * lo) / (a - e) → 0 < (uc + du * hi) / (a - e) → (w = lo ∨ w = hi) →
      sapmModule (fin G) (fin T) (fin w) (s.toSapm (fin lo) (fin hi)).1 (s.toSapm (fin lo) (fin hi)).2 =
        s.call (fin G) (fin T) (fin w)) := by
  subst hs
  have hd : a - e ≠ 0 := sub_ne_zero.mpr hne
  have hcall : GLM.call ⟨fin uc, fin du, fin e, fin a⟩ (fin G) (fin T) (fin w) =
      fin (T + G * (a - e) / (uc + du * w)) := by
    simp [GLM.call, genericLinear, hw]
  rw [hcall]
  refine ⟨?_, fun h0 h1 => ?_, fun h0 hw1 => ?_, fun lo hi hlh hl hh hwe => ?_⟩
  · have h1 : uc / (a - e) + du / (a - e) * w ≠ 0 := by
      rw [show uc / (a - e) + du / (a - e) * w = (uc + du * w) / (a - e) by ring]; exact div_ne_zero hw hd
    simp only [GLM.toFaiman, fin_sub, fin_div hd, faiman_fin _ _ _ _ _ h1]
    rw [show uc / (a - e) + du / (a - e) * w = (uc + du * w) / (a - e) by ring]
    congr 1; field_simp
  · have h1' : 1 - e ≠ 0 := sub_ne_zero.mpr h1.symm
    have hp : a * (1 - e) ≠ 0 := mul_ne_zero h0 h1'
    have hr : (a - e) / (a * (1 - e)) ≠ 0 := div_ne_zero hd hp
    have h2 : uc / ((a - e) / (a * (1 - e))) + du / ((a - e) / (a * (1 - e))) * w =
      (uc + du * w) / ((a - e) / (a * (1 - e))) := by ring
    have h3 : uc / ((a - e) / (a * (1 - e))) + du / ((a - e) / (a * (1 - e))) * w ≠ 0 := by
      rw [h2]; exact div_ne_zero hw hr
    simp only [GLM.toPvsyst, one_eq, fin_sub, fin_mul, fin_div hp, fin_div hr, pvsyst_fin _ _ _ _ _ _ _ h3]
    rw [h2]
    congr 1; field_simp
  · subst hw1
    have h51 : (0.51 : ℝ) ≠ 0 := by norm_num
    have hU : uc + du / 0.51 ≠ 0 := by
      intro h; apply hw; rw [← h]; ring
    have := noctSam_fin G T (1 / 0.51) (20 + 800 * a / (uc + du / 0.51)) e a 4 h0 0.51 (fin 1) (Or.inl ⟨rfl, rfl⟩)
      (by norm_num)
    simp only [GLM.toNoctSam, ofNat_eq, ofScientific_eq, fin_div h51, fin_add, fin_mul, fin_div hU]
    rw [show (1 : Fl) = fin 1 from rfl, this]
    have hst : standoffSpec 4 = 0 := by norm_num [standoffSpec]
    rw [hst]
    have h9 : (9.5 : ℝ) / (5.7 + 3.8 * (0.51 * (1 / 0.51))) = 1 := by norm_num
    rw [h9]
    have : uc + du * (1 / 0.51) = uc + du / 0.51 := by ring
    rw [this]
    congr 2
    field_simp
    ring
  · have hl' : hi - lo ≠ 0 := sub_ne_zero.mpr hlh.symm
    have g1 : uc / (a - e) + du / (a - e) * lo = (uc + du * lo) / (a - e) := by ring
    have g2 : uc / (a - e) + du / (a - e) * hi = (uc + du * hi) / (a - e) := by ring
    simp only [GLM.toSapm, fin_sub, fin_div hd, fin_mul, fin_add, g1, g2, log_fin hl, log_fin hh, fin_div hl',
      neg_fin, sapmModule, exp_fin]
    set L1 := Real.log ((uc + du * lo) / (a - e))
    set L2 := Real.log ((uc + du * hi) / (a - e))
    have key : Real.exp (-(L1 + -((L2 - L1) / (hi - lo)) * lo) + -((L2 - L1) / (hi - lo)) * w) =
        (a - e) / (uc + du * w) := by
      rcases hwe with rfl | rfl
      · rw [show -(L1 + -((L2 - L1) / (hi - w)) * w) + -((L2 - L1) / (hi - w)) * w = -L1 by ring,
          Real.exp_neg, Real.exp_log hl, inv_div]
      · rw [show -(L1 + -((L2 - L1) / (w - lo)) * lo) + -((L2 - L1) / (w - lo)) * w = -L2 by field_simp; ring,
          Real.exp_neg, Real.exp_log hh, inv_div]
    rw [key]
    congr 1; ring

example := glm_conversions ⟨fin 25, fin 6, fin 0.19, fin 0.88⟩ 25 6 0.19 0.88 rfl (by norm_num) 800 20 1.4 (by norm_num)

/-- The hypotheses are met, e.g. by an object built with efficiency 0.19, absorptance 0.88 after `use_faiman(25, 6.84)`
and `use_pvsyst(29, 1, 0.2)`. -/
example : (run (fin 0.19) (fin 0.88) [.faiman (fin 25) (fin 6.84), .pvsyst (fin 29) (fin 1) (some (fin 0.2)) none]).eta
      = fin 0.2 ∧
    (run (fin 0.19) (fin 0.88) [.faiman (fin 25) (fin 6.84), .pvsyst (fin 29) (fin 1) (some (fin 0.2)) none]).alpha
      = fin 0.88 := ⟨rfl, rfl⟩

end Pvlib.Props.Temperature
end
