import Verif.Model.PvFunctions
import Verif.Props.LambertCurve

/-! # Properties C76-C77: single-diode parameters from irradiance and temperature -/

noncomputable section
open scoped Classical
namespace Pvlib.Props.CalcParams
open Fl Pvlib.PvFunctions Pvlib.Props.LambertW

/-- A De Soto module: reference values (`T0` in degrees Celsius). -/
structure Module where
  (alpha aref IL I0 Rsh Rs Eg dEg G0 T0 : ℝ)

/-- Absolute temperature. -/
def kelvin (t : ℝ) : ℝ := t + 273.15

/-- Reference values that make sense. -/
structure Module.Ok (m : Module) : Prop where
  aref : 0 < m.aref
  IL : 0 < m.IL
  I0 : 0 < m.I0
  Rsh : 0 < m.Rsh
  Rs : 0 ≤ m.Rs
  Eg : 0 < m.Eg
  G0 : 0 < m.G0
  T0 : 0 < kelvin m.T0

/-- A crystalline silicon module of 60 cells. -/
def exampleModule : Module := ⟨0.003, 1.5, 8.2, 1e-10, 300, 0.3, 1.121, -0.0002677, 1000, 25⟩

theorem example_ok : exampleModule.Ok := by constructor <;> norm_num [exampleModule, kelvin]

/-- `calcparams_desoto` of the module. -/
def desoto (m : Module) (G T : ℝ) : Five :=
  calcparamsDesoto (fin G) (fin T) (fin m.alpha) (fin m.aref) (fin m.IL) (fin m.I0) (fin m.Rsh) (fin m.Rs) (fin m.Eg)
    (fin m.dEg) (fin m.G0) (fin m.T0)

/-- Band gap at temperature `T`. -/
def Module.gap (m : Module) (T : ℝ) : ℝ := m.Eg * (1 + m.dEg * (T - m.T0))

/-- Saturation current at temperature `T` (De Soto et al. 2006). -/
def Module.sat (m : Module) (T : ℝ) : ℝ :=
  m.I0 * (kelvin T / kelvin m.T0) ^ 3 * Real.exp ((m.Eg / kelvin m.T0 - m.gap T / kelvin T) / 8.617333262e-05)

variable {m : Module}

/-- **C76**: De Soto's equations, for any irradiance and any temperature above absolute zero. -/
theorem desoto_value (h : m.Ok) (G T : ℝ) (hT : 0 < kelvin T) :
    ∃ R : Fl, desoto m G T = ⟨fin (G / m.G0 * (m.IL + m.alpha * (T - m.T0))), fin (m.sat T), fin m.Rs, R,
      fin (m.aref * (kelvin T / kelvin m.T0))⟩ ∧
      (G ≠ 0 → R = fin (m.Rsh * (m.G0 / G))) ∧ (G = 0 → R = pinf) := by
  have hk : kEV ≠ 0 := by unfold kEV; norm_num
  have h0 : m.T0 + 273.15 ≠ 0 := h.T0.ne'
  have h1 : T + 273.15 ≠ 0 := hT.ne'
  have hk0 : kEV * (m.T0 + 273.15) ≠ 0 := mul_ne_zero hk h0
  have hk1 : kEV * (T + 273.15) ≠ 0 := mul_ne_zero hk h1
  refine ⟨fin m.Rsh * (fin m.G0 / fin G), ?_, ?_, ?_⟩
  · simp only [desoto, calcparamsDesoto, one_eq, fin_add, fin_sub, fin_mul, fin_div h0, fin_div hk0, fin_div hk1,
      fin_div h.G0.ne', exp_fin, fin_pow]
    congr 1
    · congr 2; ring
    · simp only [Module.sat, kelvin, Module.gap]
      congr 3
      rw [show (8.617333262e-05 : ℝ) = kEV from rfl]
      have e : T + 273.15 - (m.T0 + 273.15) = T - m.T0 := by ring
      rw [e]
      field_simp
  · intro hG
    rw [fin_div hG, fin_mul]
  · rintro rfl
    rw [fin_div_zero, infSign_pos h.G0, fin_mul_pinf, infSign_pos h.Rsh]

example := desoto_value example_ok 800 (-10) (by norm_num [kelvin])

/-- **C76**: at reference irradiance and temperature the reference parameters come back. -/
theorem desoto_reference (h : m.Ok) : desoto m m.G0 m.T0 = ⟨fin m.IL, fin m.I0, fin m.Rs, fin m.Rsh, fin m.aref⟩ := by
  obtain ⟨R, hd, hR, -⟩ := desoto_value h m.G0 m.T0 h.T0
  rw [hd, hR h.G0.ne', div_self h.G0.ne', mul_one]
  congr 1
  · congr 1; ring
  · simp only [Module.sat, Module.gap, sub_self, mul_zero, add_zero, mul_one, zero_div, Real.exp_zero, div_self h.T0.ne',
      one_pow]
  · rw [div_self h.T0.ne', mul_one]

example := desoto_reference example_ok

/-- **C76**: light current and shunt conductance are proportional to irradiance; in the dark there is no light current and
no shunt path.  The other parameters do not depend on irradiance. -/
theorem desoto_linear (h : m.Ok) (T : ℝ) (hT : 0 < kelvin T) :
    ∃ i g1 : ℝ, ∀ G, ∃ I0 R a, desoto m G T = ⟨fin (G * i), I0, fin m.Rs, R, a⟩ ∧ Conductance R (G * g1) ∧
      I0 = (desoto m 0 T).I0 ∧ a = (desoto m 0 T).nNsVth := by
  refine ⟨(m.IL + m.alpha * (T - m.T0)) / m.G0, 1 / (m.Rsh * m.G0), fun G => ?_⟩
  obtain ⟨R, hd, h1, h2⟩ := desoto_value h G T hT
  obtain ⟨R', hd', -⟩ := desoto_value h 0 T hT
  refine ⟨_, R, _, ?_, ?_, by rw [hd'], by rw [hd']⟩
  · rw [hd]
    congr 2; ring
  · have hr := h.Rsh.ne'
    have hg := h.G0.ne'
    by_cases hG : G = 0
    · exact Or.inr ⟨h2 hG, by rw [hG, zero_mul]⟩
    · refine Or.inl ⟨_, h1 hG, mul_ne_zero hr (div_ne_zero hg hG), ?_⟩
      field_simp

example := desoto_linear example_ok (-10) (by norm_num [kelvin])

/-- **C76**: the result is a cell in the sense of C67-C71 (so those theorems apply): for non-negative irradiance, as long
as the temperature coefficient leaves the light current non-negative; with light there is a positive light current. -/
theorem desoto_sane (h : m.Ok) {G T : ℝ} (hG : 0 ≤ G) (hT : 0 < kelvin T) (hI : 0 < m.IL + m.alpha * (T - m.T0)) :
    ∃ IL I0 g a : ℝ, ∃ R, desoto m G T = ⟨fin IL, fin I0, fin m.Rs, R, fin a⟩ ∧ Conductance R g ∧ Sane IL I0 m.Rs g a ∧
      (0 < G → 0 < IL ∧ 0 < g) ∧ (G = 0 → IL = 0 ∧ g = 0) := by
  obtain ⟨R, hd, h1, h2⟩ := desoto_value h G T hT
  have hr := h.Rsh
  have hg := h.G0
  have ht := h.T0
  have hi := h.I0
  have ha := h.aref
  refine ⟨_, _, G / (m.Rsh * m.G0), _, R, hd, ?_, ?_, ?_, ?_⟩
  · by_cases hG : G = 0
    · exact Or.inr ⟨h2 hG, by rw [hG, zero_div]⟩
    · refine Or.inl ⟨_, h1 hG, mul_ne_zero hr.ne' (div_ne_zero hg.ne' hG), ?_⟩
      field_simp
  · have hs : 0 < m.sat T := by unfold Module.sat; positivity
    exact ⟨by positivity, hs, h.Rs, by positivity, by positivity⟩
  · intro hG
    exact ⟨by positivity, by positivity⟩
  · rintro rfl
    simp

example := desoto_sane example_ok (G := 800) (T := -10) (by norm_num) (by norm_num [kelvin]) (by norm_num [exampleModule])

/-- **C76**: the saturation current grows strictly with temperature (for a band gap that is positive when extrapolated
to absolute zero, as with the default `dEgdT < 0`). -/
theorem desoto_sat_strictMono (h : m.Ok) (hE : 0 < 1 - m.dEg * kelvin m.T0) {T T' : ℝ} (hT : 0 < kelvin T) (hTT : T < T') :
    m.sat T < m.sat T' := by
  have hT' : 0 < kelvin T' := lt_trans hT (by unfold kelvin; linarith)
  have ht := h.T0
  have hi := h.I0
  have e : ∀ t, 0 < kelvin t → m.gap t / kelvin t = m.Eg * (1 - m.dEg * kelvin m.T0) / kelvin t + m.Eg * m.dEg := by
    intro t h0
    have h0' := h0.ne'
    have : t - m.T0 = kelvin t - kelvin m.T0 := by unfold kelvin; ring
    unfold Module.gap
    rw [this]
    field_simp
    ring
  unfold Module.sat
  have hk : kelvin T < kelvin T' := by unfold kelvin; linarith
  have hdiv : kelvin T / kelvin m.T0 < kelvin T' / kelvin m.T0 := div_lt_div_of_pos_right hk ht
  have hc : (kelvin T / kelvin m.T0) ^ 3 < (kelvin T' / kelvin m.T0) ^ 3 :=
    pow_lt_pow_left₀ hdiv (by positivity) (by norm_num)
  have hg : m.gap T' / kelvin T' < m.gap T / kelvin T := by
    rw [e T hT, e T' hT']
    have := div_lt_div_of_pos_left (mul_pos h.Eg hE) hT hk
    linarith
  have hexp : Real.exp ((m.Eg / kelvin m.T0 - m.gap T / kelvin T) / 8.617333262e-05) <
      Real.exp ((m.Eg / kelvin m.T0 - m.gap T' / kelvin T') / 8.617333262e-05) := by
    apply Real.exp_lt_exp.mpr
    apply div_lt_div_of_pos_right _ (by norm_num)
    linarith
  exact mul_lt_mul'' (mul_lt_mul_of_pos_left hc hi) hexp (by positivity) (by positivity)

example := desoto_sat_strictMono example_ok (by norm_num [exampleModule, kelvin]) (T := -10) (T' := 50) (by norm_num [kelvin]) (by norm_num)

/-- `calcparams_cec` of the module with an `Adjust` percentage. -/
def cec (m : Module) (adjust G T : ℝ) : Five :=
  calcparamsCec (fin G) (fin T) (fin m.alpha) (fin m.aref) (fin m.IL) (fin m.I0) (fin m.Rsh) (fin m.Rs) (fin adjust)
    (fin m.Eg) (fin m.dEg) (fin m.G0) (fin m.T0)

/-- **C76**: the CEC model reduces the temperature coefficient of the light current by `Adjust` percent and changes
nothing else; without adjustment, or at the reference temperature, it is De Soto's. -/
theorem cec_value (h : m.Ok) (adjust G T : ℝ) :
    (cec m adjust G T).IL = fin (G / m.G0 * (m.IL + (m.alpha - m.alpha * adjust / 100) * (T - m.T0))) ∧
    (cec m adjust G T).I0 = (desoto m G T).I0 ∧ (cec m adjust G T).Rs = (desoto m G T).Rs ∧
    (cec m adjust G T).Rsh = (desoto m G T).Rsh ∧ (cec m adjust G T).nNsVth = (desoto m G T).nNsVth ∧
    (adjust = 0 ∨ T = m.T0 → cec m adjust G T = desoto m G T) := by
  have hIL : (cec m adjust G T).IL = fin (G / m.G0 * (m.IL + (m.alpha - m.alpha * adjust / 100) * (T - m.T0))) := by
    simp only [cec, calcparamsCec, calcparamsDesoto, one_eq, ofNat_eq]
    rw [fin_div (show (100 : ℝ) ≠ 0 by norm_num)]
    simp only [fin_add, fin_sub, fin_mul, fin_div h.G0.ne']
    congr 2; ring
  have hd : (desoto m G T).IL = fin (G / m.G0 * (m.IL + m.alpha * (T - m.T0))) := by
    simp only [desoto, calcparamsDesoto, fin_add, fin_sub, fin_mul, fin_div h.G0.ne']
    congr 2; ring
  refine ⟨hIL, rfl, rfl, rfl, rfl, ?_⟩
  intro hc
  have e : (cec m adjust G T).IL = (desoto m G T).IL := by
    rw [hIL, hd]
    rcases hc with rfl | rfl
    · congr 2; ring
    · congr 2; ring
  have : ∀ x y : Five, x.IL = y.IL → x.I0 = y.I0 → x.Rs = y.Rs → x.Rsh = y.Rsh → x.nNsVth = y.nNsVth → x = y := by
    rintro ⟨⟩ ⟨⟩; simp; tauto
  exact this _ _ e rfl rfl rfl rfl

example := cec_value example_ok 8 800 45

/-! ### C77: PVsyst -/

/-- A PVsyst module: reference values. -/
structure PModule where
  (alpha gamma mu IL I0 Rsh Rsh0 Rs Ns ex Eg G0 T0 : ℝ)

structure PModule.Ok (m : PModule) : Prop where
  gamma : 0 < m.gamma
  IL : 0 < m.IL
  I0 : 0 < m.I0
  Rsh : 0 < m.Rsh
  Rsh0 : 0 < m.Rsh0
  Rs : 0 ≤ m.Rs
  Ns : 0 < m.Ns
  ex : 0 < m.ex
  Eg : 0 < m.Eg
  G0 : 0 < m.G0
  T0 : 0 < kelvin m.T0

/-- The same module with PVsyst parameters. -/
def examplePModule : PModule := ⟨0.003, 1.05, 0, 8.2, 1e-10, 300, 1200, 0.3, 60, 5.5, 1.121, 1000, 25⟩

theorem examplep_ok : examplePModule.Ok := by constructor <;> norm_num [examplePModule, kelvin]

/-- `calcparams_pvsyst` of the module. -/
def pvsyst (m : PModule) (G T : ℝ) : Five :=
  calcparamsPvsyst (fin G) (fin T) (fin m.alpha) (fin m.gamma) (fin m.mu) (fin m.IL) (fin m.I0) (fin m.Rsh) (fin m.Rsh0)
    (fin m.Rs) (fin m.Ns) (fin m.ex) (fin m.Eg) (fin m.G0) (fin m.T0)

/-- The diode ideality factor at temperature `T`. -/
def PModule.gam (m : PModule) (T : ℝ) : ℝ := m.gamma + m.mu * (T - m.T0)

/-- `q / k`. -/
def qk : ℝ := 1.602176634e-19 / 1.380649e-23

/-- Saturation current. -/
def PModule.sat (m : PModule) (T : ℝ) : ℝ :=
  m.I0 * (kelvin T / kelvin m.T0) ^ 3 * Real.exp (qk * m.Eg / m.gam T * (1 / kelvin m.T0 - 1 / kelvin T))

/-- The shunt resistance approached in strong light. -/
def PModule.base (m : PModule) : ℝ := max 0 ((m.Rsh - m.Rsh0 * Real.exp (-m.ex)) / (1 - Real.exp (-m.ex)))

/-- Shunt resistance at irradiance `G`. -/
def PModule.shunt (m : PModule) (G : ℝ) : ℝ := m.base + (m.Rsh0 - m.base) * Real.exp (-m.ex * G / m.G0)

variable {p : PModule}

/-- **C77**: the PVsyst equations. -/
theorem pvsyst_value (h : p.Ok) (G T : ℝ) (hT : 0 < kelvin T) (hg : p.gam T ≠ 0) :
    pvsyst p G T = ⟨fin (G / p.G0 * (p.IL + p.alpha * (T - p.T0))), fin (p.sat T), fin p.Rs, fin (p.shunt G),
      fin (p.gam T * p.Ns * kelvin T / qk)⟩ := by
  have hk : kB ≠ 0 := by unfold kB; norm_num
  have hq : qe ≠ 0 := by unfold qe; norm_num
  have h0 : p.T0 + 273.15 ≠ 0 := h.T0.ne'
  have h1 : T + 273.15 ≠ 0 := hT.ne'
  have hg' : p.gamma + p.mu * (T - p.T0) ≠ 0 := hg
  have hkg : kB * (p.gamma + p.mu * (T - p.T0)) ≠ 0 := mul_ne_zero hk hg'
  have he : 1 - Real.exp (-p.ex) ≠ 0 := by
    have := Real.exp_lt_one_iff.mpr (neg_lt_zero.mpr h.ex)
    linarith
  have hqk : qk = qe / kB := rfl
  simp only [pvsyst, calcparamsPvsyst, pvsystGamma, pvsystNNsVth, pvsystIL, pvsystIo, pvsystRsh, one_eq, zero_eq, fin_add, fin_sub,
    fin_mul, neg_fin, exp_fin, fin_div h0, fin_div h1, fin_div hq, fin_div h.G0.ne', fin_div he, fin_div hkg, fin_pow,
    maximum_fin]
  congr 1
  · congr 2; ring
  · simp only [PModule.sat, kelvin, PModule.gam, hqk]
    congr 4
    field_simp
  · simp only [PModule.gam, kelvin, hqk]
    congr 1
    field_simp

example := pvsyst_value examplep_ok 800 45 (by norm_num [kelvin]) (by norm_num [PModule.gam, examplePModule])

/-- **C77**: reference conditions return the reference values (thermal voltage `gamma k Ns T0 / q`), provided the shunt
resistance at reference is at least `exp(-R_sh_exp)` of the dark one. -/
theorem pvsyst_reference (h : p.Ok) (hs : p.Rsh0 * Real.exp (-p.ex) ≤ p.Rsh) :
    pvsyst p p.G0 p.T0 = ⟨fin p.IL, fin p.I0, fin p.Rs, fin p.Rsh, fin (p.gamma * p.Ns * kelvin p.T0 / qk)⟩ := by
  have hg : p.gam p.T0 = p.gamma := by simp [PModule.gam]
  rw [pvsyst_value h _ _ h.T0 (by rw [hg]; exact h.gamma.ne'), hg]
  have he : 0 < 1 - Real.exp (-p.ex) := by
    have := Real.exp_lt_one_iff.mpr (neg_lt_zero.mpr h.ex)
    linarith
  congr 1
  · rw [div_self h.G0.ne', sub_self, mul_zero, add_zero, one_mul]
  · simp [PModule.sat, div_self h.T0.ne']
  · have hb : p.base = (p.Rsh - p.Rsh0 * Real.exp (-p.ex)) / (1 - Real.exp (-p.ex)) :=
      max_eq_right (div_nonneg (by linarith) he.le)
    have hx : -p.ex * p.G0 / p.G0 = -p.ex := by have := h.G0.ne'; field_simp
    simp only [PModule.shunt, hx, hb]
    have := he.ne'
    congr 1
    field_simp
    ring

example := pvsyst_reference examplep_ok (by
  show (1200 : ℝ) * Real.exp (-5.5) ≤ 300
  have h1 := Real.add_one_le_exp (5.5 : ℝ)
  have h2 : Real.exp (-5.5) * Real.exp 5.5 = 1 := by rw [← Real.exp_add]; norm_num
  nlinarith [Real.exp_pos (-5.5 : ℝ)])

/-- **C77**: in the other case (dark shunt resistance too large) the model does not reproduce the reference shunt
resistance: it returns more. -/
theorem pvsyst_reference_shunt (h : p.Ok) (hs : p.Rsh < p.Rsh0 * Real.exp (-p.ex)) : p.Rsh < p.shunt p.G0 := by
  have he : 0 < 1 - Real.exp (-p.ex) := by
    have := Real.exp_lt_one_iff.mpr (neg_lt_zero.mpr h.ex)
    linarith
  have hb : p.base = 0 := max_eq_left (div_nonpos_of_nonpos_of_nonneg (by linarith) he.le)
  have hx : -p.ex * p.G0 / p.G0 = -p.ex := by have := h.G0.ne'; field_simp
  simp only [PModule.shunt, hx, hb]
  linarith

example := pvsyst_reference_shunt (p := { examplePModule with ex := 1 / 2 }) (by constructor <;> norm_num [kelvin, examplePModule]) (by
  show (300 : ℝ) < 1200 * Real.exp (-(1 / 2))
  have := Real.add_one_le_exp (-(1 / 2) : ℝ)
  linarith)

/-- **C77**: the shunt resistance starts at `R_sh_0` in the dark, stays between that and its limit, is positive, and
falls with irradiance when the dark value is the larger one (as measured cells have it). -/
theorem pvsyst_shunt (h : p.Ok) :
    p.shunt 0 = p.Rsh0 ∧ (∀ G, 0 ≤ G → min p.base p.Rsh0 ≤ p.shunt G ∧ p.shunt G ≤ max p.base p.Rsh0 ∧ 0 < p.shunt G) ∧
    (p.Rsh ≤ p.Rsh0 → ∀ G G', G ≤ G' → p.shunt G' ≤ p.shunt G) := by
  have hb0 : 0 ≤ p.base := le_max_left _ _
  have hG0 := h.G0
  have hex := h.ex
  refine ⟨by simp [PModule.shunt], fun G hG => ?_, fun hR G G' hGG => ?_⟩
  · have e1 : 0 < Real.exp (-p.ex * G / p.G0) := Real.exp_pos _
    have e2 : Real.exp (-p.ex * G / p.G0) ≤ 1 := by
      apply Real.exp_le_one_iff.mpr
      rw [neg_mul, neg_div]
      have : 0 ≤ p.ex * G / p.G0 := by positivity
      linarith
    unfold PModule.shunt
    set E := Real.exp (-p.ex * G / p.G0)
    have hr := h.Rsh0
    refine ⟨?_, ?_, ?_⟩
    · rcases min_cases p.base p.Rsh0 with ⟨hm, hl⟩ | ⟨hm, hl⟩ <;> rw [hm] <;> nlinarith
    · rcases max_cases p.base p.Rsh0 with ⟨hm, hl⟩ | ⟨hm, hl⟩ <;> rw [hm] <;> nlinarith
    · nlinarith [mul_pos hr e1]
  · have he : 0 < 1 - Real.exp (-p.ex) := by
      have := Real.exp_lt_one_iff.mpr (neg_lt_zero.mpr h.ex)
      linarith
    have hb : p.base ≤ p.Rsh0 := by
      apply max_le h.Rsh0.le
      rw [div_le_iff₀ he]
      linarith
    have : Real.exp (-p.ex * G' / p.G0) ≤ Real.exp (-p.ex * G / p.G0) := by
      apply Real.exp_le_exp.mpr
      apply div_le_div_of_nonneg_right _ hG0.le
      nlinarith
    unfold PModule.shunt
    have := mul_le_mul_of_nonneg_left this (sub_nonneg.mpr hb)
    linarith

example := pvsyst_shunt examplep_ok

/-- **C77**: the result is a cell in the sense of C67-C71. -/
theorem pvsyst_sane (h : p.Ok) {G T : ℝ} (hG : 0 ≤ G) (hT : 0 < kelvin T) (hg : 0 < p.gam T)
    (hI : 0 < p.IL + p.alpha * (T - p.T0)) :
    ∃ IL I0 g a R : ℝ, pvsyst p G T = ⟨fin IL, fin I0, fin p.Rs, fin R, fin a⟩ ∧ Conductance (fin R) g ∧ 0 < g ∧
      Sane IL I0 p.Rs g a ∧ (0 < G → 0 < IL) ∧ (G = 0 → IL = 0 ∧ R = p.Rsh0) := by
  have hs := ((pvsyst_shunt h).2.1 G hG).2.2
  have hg0 := h.G0
  have ht := h.T0
  have hi := h.I0
  have hn := h.Ns
  have hq : 0 < qk := by unfold qk; norm_num
  refine ⟨_, _, 1 / p.shunt G, _, _, pvsyst_value h G T hT hg.ne', Or.inl ⟨_, rfl, hs.ne', rfl⟩, by positivity, ?_, ?_, ?_⟩
  · have hsat : 0 < p.sat T := by unfold PModule.sat; positivity
    exact ⟨by positivity, hsat, h.Rs, by positivity, by positivity⟩
  · intro hG; positivity
  · rintro rfl
    exact ⟨by simp, (pvsyst_shunt h).1⟩

example := pvsyst_sane examplep_ok (G := 800) (T := 45) (by norm_num) (by norm_num [kelvin]) (by norm_num [PModule.gam, examplePModule])
  (by norm_num [examplePModule])

/-- **C77**: without a temperature coefficient of the ideality factor, the saturation current grows strictly with
temperature. -/
theorem pvsyst_sat_strictMono (h : p.Ok) (hmu : p.mu = 0) {T T' : ℝ} (hT : 0 < kelvin T) (hTT : T < T') : p.sat T < p.sat T' := by
  have hT' : 0 < kelvin T' := lt_trans hT (by unfold kelvin; linarith)
  have hg : ∀ t, p.gam t = p.gamma := by intro t; simp [PModule.gam, hmu]
  have ht := h.T0
  have hi := h.I0
  have hq : 0 < qk := by unfold qk; norm_num
  unfold PModule.sat
  rw [hg, hg]
  have hk : kelvin T < kelvin T' := by unfold kelvin; linarith
  have hdiv : kelvin T / kelvin p.T0 < kelvin T' / kelvin p.T0 := div_lt_div_of_pos_right hk ht
  have hc : (kelvin T / kelvin p.T0) ^ 3 < (kelvin T' / kelvin p.T0) ^ 3 :=
    pow_lt_pow_left₀ hdiv (by positivity) (by norm_num)
  have hinv : 1 / kelvin T' < 1 / kelvin T := one_div_lt_one_div_of_lt hT hk
  have hexp : Real.exp (qk * p.Eg / p.gamma * (1 / kelvin p.T0 - 1 / kelvin T)) <
      Real.exp (qk * p.Eg / p.gamma * (1 / kelvin p.T0 - 1 / kelvin T')) := by
    apply Real.exp_lt_exp.mpr
    apply mul_lt_mul_of_pos_left _ (div_pos (mul_pos hq h.Eg) h.gamma)
    linarith
  exact mul_lt_mul'' (mul_lt_mul_of_pos_left hc hi) hexp (by positivity) (by positivity)

/-! ### The hypotheses can be met -/

end Pvlib.Props.CalcParams
end
