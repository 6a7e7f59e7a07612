import Verif.Model.PvFunctions
import Verif.Props.Spectrum

/-! # Property C79: the Sandia module model -/

noncomputable section
open scoped Classical
namespace Pvlib.Props.Sapm
open Fl Pvlib.PvFunctions

/-- The coefficients as real numbers, without the optional ones. -/
structure Coeffs where
  (Isco Impo Voco Vmpo Aisc Aimp C0 C1 C2 C3 Bvmpo Mbvmp Bvoco Mbvoc N Ns : ℝ)

/-- The module handed to pvlib. -/
def Coeffs.toModule (c : Coeffs) (IXO C4 C5 IXXO C6 C7 : Option Fl) : SapmModule :=
  ⟨fin c.Isco, fin c.Impo, fin c.Voco, fin c.Vmpo, fin c.Aisc, fin c.Aimp, fin c.C0, fin c.C1, fin c.C2, fin c.C3, fin c.Bvmpo,
    fin c.Mbvmp, fin c.Bvoco, fin c.Mbvoc, fin c.N, fin c.Ns, IXO, C4, C5, IXXO, C6, C7⟩

/-- Thermal voltage per cell times the diode factor, `n k T / q`. -/
def Coeffs.delta (c : Coeffs) (T : ℝ) : ℝ := c.N * 1.380649e-23 * (T + 273.15) / 1.602176634e-19

variable (c : Coeffs) {IXO C4 C5 IXXO C6 C7 : Option Fl}

private theorem delta_fin (T : ℝ) : fin c.N * fin kB * (fin T + fin 273.15) / fin qe = fin (c.delta T) := by
  have hq : qe ≠ 0 := by unfold qe; norm_num
  rw [fin_add, fin_mul, fin_mul, fin_div hq]
  rfl

private theorem logEe_pos {x : ℝ} (h : 0 < x) : logEe (fin x) = fin (Real.log x) := by
  have h0 : ¬ x = 0 := h.ne'
  simp only [logEe, zero_eq, fin_lt, h, if_true, log_fin h, eqv_fin, h0, if_false]

private theorem logEe_zero : logEe (fin 0) = ninf := by simp [logEe]

private theorem logEe_neg {x : Fl} (h : ¬ 0 ≤ x) : logEe x = nan := by
  have h1 : ¬ (0 < x) := by
    intro h'; apply h; cases x <;> simp_all <;> linarith
  have h2 : ¬ eqv x 0 := by
    rintro ⟨-, rfl⟩; apply h; simp
  simp only [logEe, h1, h2, if_false]

/-- **C79**: the published equations, for positive irradiance. -/
theorem sapm_value {G T G0 T0 : ℝ} (hG : 0 < G) (hG0 : 0 < G0) :
    ∃ x xx, sapm (fin G) (fin T) (c.toModule IXO C4 C5 IXXO C6 C7) (fin T0) (fin G0) =
      let e := G / G0
      let imp := c.Impo * (c.C0 * e + c.C1 * e ^ 2) * (1 + c.Aimp * (T - T0))
      let vmp := max 0 (c.Vmpo + c.C2 * c.Ns * c.delta T * Real.log e + c.C3 * c.Ns * (c.delta T * Real.log e) ^ 2 +
        (c.Bvmpo + c.Mbvmp * (1 - e)) * (T - T0))
      ⟨fin (c.Isco * e * (1 + c.Aisc * (T - T0))), fin imp,
       fin (max 0 (c.Voco + c.Ns * c.delta T * Real.log e + (c.Bvoco + c.Mbvoc * (1 - e)) * (T - T0))), fin vmp,
       fin (imp * vmp), x, xx⟩ := by
  refine ⟨(sapm (fin G) (fin T) (c.toModule IXO C4 C5 IXXO C6 C7) (fin T0) (fin G0)).i_x,
    (sapm (fin G) (fin T) (c.toModule IXO C4 C5 IXXO C6 C7) (fin T0) (fin G0)).i_xx, ?_⟩
  simp only [sapm, Coeffs.toModule, delta_fin]
  rw [fin_div hG0.ne', logEe_pos (div_pos hG hG0)]
  simp only [one_eq, zero_eq, fin_add, fin_sub, fin_mul, fin_pow, maximum_fin]

private def demo : Coeffs := ⟨8.2, 7.6, 37, 30, 0.0004, 0.0001, 1.01, -0.01, 0.28, -5.4, -0.13, 0, -0.13, 0, 1.1, 60⟩
example (x1 x2 x3 x4 x5 x6) := sapm_value demo (IXO := x1) (C4 := x2) (C5 := x3) (IXXO := x4) (C6 := x5) (C7 := x6) (G := 800) (T := 50) (G0 := 1000)
  (T0 := 25) (by norm_num) (by norm_num)

/-- **C79**: at reference irradiance and temperature the module's reference values come back (for `C0 + C1 = 1`, which the
model's parameters are normalised to). -/
theorem sapm_reference {G0 T0 : ℝ} (hG0 : 0 < G0) (hC : c.C0 + c.C1 = 1) (hV : 0 ≤ c.Voco) (hV' : 0 ≤ c.Vmpo) :
    ∃ x xx, sapm (fin G0) (fin T0) (c.toModule IXO C4 C5 IXXO C6 C7) (fin T0) (fin G0) =
      ⟨fin c.Isco, fin c.Impo, fin c.Voco, fin c.Vmpo, fin (c.Impo * c.Vmpo), x, xx⟩ := by
  obtain ⟨x, xx, h⟩ := sapm_value c (IXO := IXO) (C4 := C4) (C5 := C5) (IXXO := IXXO) (C6 := C6) (C7 := C7) (T := T0) (T0 := T0) hG0 hG0
  refine ⟨x, xx, h.trans ?_⟩
  simp only [div_self hG0.ne', sub_self, mul_zero, add_zero, mul_one, one_pow, Real.log_one, hC, max_eq_right hV]
  norm_num [hV']

example (x1 x2 x3 x4 x5 x6) := sapm_reference demo (IXO := x1) (C4 := x2) (C5 := x3) (IXXO := x4) (C6 := x5) (C7 := x6) (G0 := 1000) (T0 := 25) (by norm_num)
  (by norm_num [demo]) (by norm_num [demo]) (by norm_num [demo])

/-- **C79**: `i_x` (`i_xx`) is returned exactly when the module has all three of its coefficients; at reference conditions
it is then the reference value (for normalised coefficients). -/
theorem sapm_optional (G T T0 G0 : Fl) (m : SapmModule) :
    ((sapm G T m T0 G0).i_x.isSome ↔ m.IXO.isSome ∧ m.C4.isSome ∧ m.C5.isSome) ∧
    ((sapm G T m T0 G0).i_xx.isSome ↔ m.IXXO.isSome ∧ m.C6.isSome ∧ m.C7.isSome) := by
  obtain ⟨_, _, _, _, _, _, _, _, _, _, _, _, _, _, _, _, a, b, d, e, f, g⟩ := m
  constructor
  · cases a <;> cases b <;> cases d <;> simp [sapm]
  · cases e <;> cases f <;> cases g <;> simp [sapm]

/-- **C79**: values of the optional currents at reference conditions. -/
theorem sapm_optional_reference {G0 T0 ixo c4 c5 ixxo c6 c7 : ℝ} (hG0 : 0 < G0) (h1 : c4 + c5 = 1) (h2 : c6 + c7 = 1) :
    let o := sapm (fin G0) (fin T0) (c.toModule (some (fin ixo)) (some (fin c4)) (some (fin c5)) (some (fin ixxo))
      (some (fin c6)) (some (fin c7))) (fin T0) (fin G0)
    o.i_x = some (fin ixo) ∧ o.i_xx = some (fin ixxo) := by
  constructor
  · simp only [sapm, Coeffs.toModule, fin_div hG0.ne', div_self hG0.ne', one_eq, fin_add, fin_sub, fin_mul, fin_pow, sub_self,
      mul_zero, add_zero, mul_one, one_pow, h1]
  · simp only [sapm, Coeffs.toModule, fin_div hG0.ne', div_self hG0.ne', one_eq, fin_add, fin_sub, fin_mul, fin_pow, sub_self,
      mul_zero, add_zero, mul_one, one_pow, h2]

example := sapm_optional_reference demo (G0 := 1000) (T0 := 25) (ixo := 8) (c4 := 0.99) (c5 := 0.01) (ixxo := 5) (c6 := 1.1) (c7 := -0.1) (by norm_num)
  (by norm_num) (by norm_num)

/-- **C79**: in the dark all currents and the open-circuit voltage are zero; `v_mp` and `p_mp` are zero exactly when
`C2 > 0` and `C3 < 0`: for other signs the formula meets infinities and `p_mp` is NaN. -/
theorem sapm_dark {T T0 G0 : ℝ} (hG0 : 0 < G0) (hd : 0 < c.delta T) (hN : 0 < c.Ns) :
    let o := sapm (fin 0) (fin T) (c.toModule IXO C4 C5 IXXO C6 C7) (fin T0) (fin G0)
    o.i_sc = fin 0 ∧ o.i_mp = fin 0 ∧ o.v_oc = fin 0 ∧
    ((0 < c.C2 ∧ c.C3 < 0) → o.v_mp = fin 0 ∧ o.p_mp = fin 0) ∧
    (¬ (0 < c.C2 ∧ c.C3 < 0) → (o.v_mp = nan ∨ o.v_mp = pinf) ∧ o.p_mp = nan) := by
  have hq : fin (0 : ℝ) / fin G0 = fin 0 := by rw [fin_div hG0.ne', zero_div]
  have e2 : (fin (c.delta T) * ninf) ^ 2 = pinf := by
    rw [fin_mul_ninf, infSign_neg (by linarith), show (2 : ℕ) = 1 + 1 from rfl, pow_succ', show (1 : ℕ) = 0 + 1 from rfl,
      pow_succ', pow_zero', fin_mul_ninf, infSign_neg (by norm_num), ninf_mul_ninf]
  have hnd : 0 < c.Ns * c.delta T := mul_pos hN hd
  have mm : maximum (fin 0) ninf = fin 0 := rfl
  have imp : c.Impo * (c.C0 * 0 + c.C1 * 0 ^ 2) * (1 + c.Aimp * (T - T0)) = 0 := by ring
  simp only [sapm, Coeffs.toModule, delta_fin, hq, logEe_zero, e2]
  simp only [one_eq, zero_eq, fin_add, fin_sub, fin_mul, fin_pow, imp]
  refine ⟨by simp, trivial, ?_, ?_, ?_⟩
  · rw [fin_mul_ninf, infSign_neg (by linarith), fin_add_ninf, ninf_add_fin, mm]
  · rintro ⟨h2, h3⟩
    have k2 : 0 < c.C2 * c.Ns * c.delta T := by positivity
    have k3 : c.C3 * c.Ns < 0 := by nlinarith
    rw [fin_mul_ninf, infSign_neg (by linarith), fin_mul_pinf, infSign_neg k3, fin_add_ninf, ninf_add_ninf, ninf_add_fin, mm]
    simp
  · intro hn
    have hz : fin (0 : ℝ) * pinf = nan := by rw [fin_mul_pinf, infSign_zero]
    have k2 : 0 < c.C2 * c.Ns * c.delta T ↔ 0 < c.C2 := by
      rw [mul_assoc]; exact mul_pos_iff_of_pos_right hnd
    have k3 : c.C3 * c.Ns < 0 ↔ c.C3 < 0 := by
      constructor
      · intro h; by_contra h'; push Not at h'; nlinarith [mul_nonneg h' hN.le]
      · intro h; nlinarith
    set v := maximum (fin 0) (fin c.Vmpo + fin (c.C2 * c.Ns * c.delta T) * ninf + fin (c.C3 * c.Ns) * pinf +
        fin ((c.Bvmpo + c.Mbvmp * (1 - 0)) * (T - T0))) with hv
    have hv' : v = nan ∨ v = pinf := by
      rw [hv, fin_mul_ninf, fin_mul_pinf]
      unfold infSign
      by_cases a1 : 0 < c.C2
      · have a3 : ¬ c.C3 * c.Ns < 0 := fun h => hn ⟨a1, k3.mp h⟩
        have a2 := k2.mpr a1
        rw [if_neg (by linarith), if_pos (by linarith)]
        by_cases a4 : 0 < c.C3 * c.Ns
        · rw [if_pos a4]; left; rfl
        · rw [if_neg a4, if_neg a3]; left; rfl
      · have a2 : ¬ 0 < c.C2 * c.Ns * c.delta T := fun h => a1 (k2.mp h)
        by_cases a5 : 0 < -(c.C2 * c.Ns * c.delta T)
        · rw [if_pos a5]
          by_cases a4 : 0 < c.C3 * c.Ns
          · rw [if_pos a4]; right; rfl
          · rw [if_neg a4]
            split_ifs
            · left; rfl
            · left; rfl
        · rw [if_neg a5, if_neg (by linarith)]
          left; simp
    refine ⟨hv', ?_⟩
    rcases hv' with h | h <;> rw [h]
    · simp
    · exact hz

example (x1 x2 x3 x4 x5 x6) := sapm_dark demo (IXO := x1) (C4 := x2) (C5 := x3) (IXXO := x4) (C6 := x5) (C7 := x6) (T := 10) (T0 := 25) (G0 := 1000) (by norm_num)
  (by norm_num [demo, Coeffs.delta]) (by norm_num [demo])

/-- **C79**: a negative or NaN irradiance has no voltage. -/
theorem sapm_invalid (G T T0 : Fl) (G0 : Fl) (m : SapmModule) (h : ¬ 0 ≤ G / G0) :
    (sapm G T m T0 G0).v_oc = nan ∧ (sapm G T m T0 G0).v_mp = nan ∧ (sapm G T m T0 G0).p_mp = nan := by
  have e := logEe_neg h
  have n2 : (nan : Fl) ^ 2 = nan := rfl
  refine ⟨?_, ?_, ?_⟩ <;> simp only [sapm, e, mul_nan, add_nan, nan_add, maximum_nan_right]

example (m) := sapm_invalid nan (fin 50) (fin 25) (fin 1000) m (by simp)

/-- **C79**: voltages are never negative. -/
theorem sapm_voltages (G T T0 G0 : Fl) (m : SapmModule) :
    ((sapm G T m T0 G0).v_oc = nan ∨ 0 ≤ (sapm G T m T0 G0).v_oc) ∧
    ((sapm G T m T0 G0).v_mp = nan ∨ 0 ≤ (sapm G T m T0 G0).v_mp) := by
  have key : ∀ x : Fl, maximum 0 x = nan ∨ 0 ≤ maximum 0 x := by
    intro x
    by_cases h : maximum 0 x = nan
    · exact Or.inl h
    · exact Or.inr (le_maximum_left h)
  exact ⟨key _, key _⟩

/-- **C79**: `v_oc` does not fall with irradiance (no irradiance-dependent temperature coefficient, as in all published
parameter sets, `Mbvoc = 0`). -/
theorem sapm_voc_mono {G G' T G0 T0 : ℝ} (hG : 0 < G) (hGG : G ≤ G') (hG0 : 0 < G0) (hM : c.Mbvoc = 0) (hd : 0 ≤ c.Ns * c.delta T) :
    (sapm (fin G) (fin T) (c.toModule IXO C4 C5 IXXO C6 C7) (fin T0) (fin G0)).v_oc ≤
      (sapm (fin G') (fin T) (c.toModule IXO C4 C5 IXXO C6 C7) (fin T0) (fin G0)).v_oc := by
  obtain ⟨x, xx, h⟩ := sapm_value c (IXO := IXO) (C4 := C4) (C5 := C5) (IXXO := IXXO) (C6 := C6) (C7 := C7) (T := T) (T0 := T0) hG hG0
  obtain ⟨x', xx', h'⟩ := sapm_value c (IXO := IXO) (C4 := C4) (C5 := C5) (IXXO := IXXO) (C6 := C6) (C7 := C7) (T := T) (T0 := T0)
    (hG.trans_le hGG) hG0
  rw [h, h']
  simp only [fin_le, hM, zero_mul, add_zero]
  apply max_le_max_left
  have : Real.log (G / G0) ≤ Real.log (G' / G0) :=
    Real.log_le_log (div_pos hG hG0) (div_le_div_of_nonneg_right hGG hG0.le)
  have := mul_le_mul_of_nonneg_left this hd
  linarith

example (x1 x2 x3 x4 x5 x6) := sapm_voc_mono demo (IXO := x1) (C4 := x2) (C5 := x3) (IXXO := x4) (C6 := x5) (C7 := x6) (G := 200) (G' := 800) (T := 50) (G0 := 1000)
  (T0 := 25) (by norm_num) (by norm_num) (by norm_num) (by norm_num [demo]) (by norm_num [demo, Coeffs.delta])

/-- **C79**: effective irradiance: the spectral factor times beam (with the incidence angle modifier) plus a fraction `FD` of
diffuse; non-negative for non-negative irradiance; zero where air mass is NaN (sun below the horizon). -/
theorem effective_irradiance (b d am f2 fd A0 A1 A2 A3 A4 : ℝ) (aoi B0 B1 B2 B3 B4 B5 : Fl)
    (h2 : Iam.sapm aoi B0 B1 B2 B3 B4 B5 = fin f2) :
    sapmEffectiveIrradiance (fin b) (fin d) (fin am) aoi (fin A0) (fin A1) (fin A2) (fin A3) (fin A4) B0 B1 B2 B3 B4 B5 (fin fd) =
      fin (max 0 (A0 + A1 * am + A2 * am ^ 2 + A3 * am ^ 3 + A4 * am ^ 4) * (b * f2 + fd * d)) ∧
    (0 ≤ b → 0 ≤ d → 0 ≤ fd → 0 ≤ f2 →
      0 ≤ max 0 (A0 + A1 * am + A2 * am ^ 2 + A3 * am ^ 3 + A4 * am ^ 4) * (b * f2 + fd * d)) ∧
    (∀ a0 a1 a2 a3 a4 : Fl, sapmEffectiveIrradiance (fin b) (fin d) nan aoi a0 a1 a2 a3 a4 B0 B1 B2 B3 B4 B5 (fin fd) = fin 0) := by
  refine ⟨?_, ?_, ?_⟩
  · simp only [sapmEffectiveIrradiance, h2, (Spectrum.sapmFactor_value am A0 A1 A2 A3 A4).1, fin_mul, fin_add]
  · intro h1 h3 h4 h5
    have : 0 ≤ max 0 (A0 + A1 * am + A2 * am ^ 2 + A3 * am ^ 3 + A4 * am ^ 4) := le_max_left _ _
    positivity
  · intro a0 a1 a2 a3 a4
    simp only [sapmEffectiveIrradiance, h2, (Spectrum.sapmFactor_value 0 0 0 0 0 0).2, fin_mul, fin_add, zero_mul]

/-! ### The hypotheses can be met -/

example : let c : Coeffs := ⟨8.2, 7.6, 37, 30, 0.0004, 0.0001, 1.01, -0.01, 0.28, -5.4, -0.13, 0, -0.13, 0, 1.1, 60⟩
    c.C0 + c.C1 = 1 ∧ 0 < c.delta 25 ∧ 0 < c.Ns ∧ 0 < c.C2 ∧ c.C3 < 0 ∧ c.Mbvoc = 0 := by
  norm_num [Coeffs.delta]

end Pvlib.Props.Sapm
end
