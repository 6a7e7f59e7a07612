import Verif.Model.Sdm
import Verif.Props.SdmExtract
import Verif.Props.SingleDiodeCurve
import Mathlib.Analysis.Calculus.MeanValue

/-! # Properties C152, C153: `pvsyst_temperature_coeff`, the centred difference, and `fit_cec_sam` -/

noncomputable section
open scoped Classical
namespace Pvlib.Props.SdmCoeff
open Fl Pvlib.PvFunctions Pvlib.SingleDiode Pvlib.Sdm Pvlib.Tools
open Pvlib.Props.SingleDiode (Cell Physical Roots Matches)
open Pvlib.Props.SdmExtract (kel)

/-! ### The centred difference -/

private theorem grow {u u' b b' : ℝ → ℝ} {H : ℝ} (h0 : u 0 = 0) (b0 : b 0 = 0)
    (hu : ∀ t ∈ Set.Icc 0 H, HasDerivAt u (u' t) t) (hb : ∀ t, HasDerivAt b (b' t) t)
    (hle : ∀ t ∈ Set.Icc 0 H, |u' t| ≤ b' t) : ∀ t ∈ Set.Icc 0 H, |u t| ≤ b t := by
  intro t ht
  refine image_norm_le_of_norm_deriv_right_le_deriv_boundary (f := u) (f' := u') (a := 0) (b := H) ?_ ?_ ?_ hb ?_ ht
  · exact fun s hs => (hu s hs).continuousAt.continuousWithinAt
  · exact fun s hs => (hu s (Set.Ico_subset_Icc_self hs)).hasDerivWithinAt
  · rw [h0, b0, norm_zero]
  · exact fun s hs => hle s (Set.Ico_subset_Icc_self hs)

/-- **C152, accuracy of the difference.**  For a function with three derivatives between `x - h` and `x + h`, the third at most `M` in
size, the centred difference is within `M h² / 6` of the derivative at `x`.  In particular it is exact for quadratic functions. -/
theorem difference_error (f f1 f2 f3 : ℝ → ℝ) (x h M : ℝ) (hh : 0 < h)
    (d1 : ∀ y ∈ Set.Icc (x - h) (x + h), HasDerivAt f (f1 y) y) (d2 : ∀ y ∈ Set.Icc (x - h) (x + h), HasDerivAt f1 (f2 y) y)
    (d3 : ∀ y ∈ Set.Icc (x - h) (x + h), HasDerivAt f2 (f3 y) y) (hM : ∀ y ∈ Set.Icc (x - h) (x + h), |f3 y| ≤ M) :
    ∃ D, centeredDifference (fun y => match y with | fin y => .ok (fin (f y)) | y => .ok y) (fin x) (fin h) = .ok (fin D) ∧
      |D - f1 x| ≤ M * h ^ 2 / 6 := by
  refine ⟨(f (x + h) - f (x - h)) / 2 / h, ?_, ?_⟩
  · unfold centeredDifference
    have e2 : (2 : Fl) = fin 2 := ofNat_eq
    simp only [fin_add, fin_sub]
    rw [e2, fin_div (by norm_num), fin_div hh.ne']
  · have mp : ∀ t ∈ Set.Icc 0 h, x + t ∈ Set.Icc (x - h) (x + h) := fun t ht => ⟨by linarith [ht.1], by linarith [ht.2]⟩
    have mm : ∀ t ∈ Set.Icc 0 h, x - t ∈ Set.Icc (x - h) (x + h) := fun t ht => ⟨by linarith [ht.2], by linarith [ht.1]⟩
    have cp : ∀ {g g' : ℝ → ℝ}, (∀ y ∈ Set.Icc (x - h) (x + h), HasDerivAt g (g' y) y) → ∀ t ∈ Set.Icc 0 h,
        HasDerivAt (fun t => g (x + t)) (g' (x + t)) t := by
      intro g g' hg t ht
      have := (hg _ (mp t ht)).comp t ((hasDerivAt_id t).const_add x)
      simpa [Function.comp_def] using this
    have cm : ∀ {g g' : ℝ → ℝ}, (∀ y ∈ Set.Icc (x - h) (x + h), HasDerivAt g (g' y) y) → ∀ t ∈ Set.Icc 0 h,
        HasDerivAt (fun t => g (x - t)) (-g' (x - t)) t := by
      intro g g' hg t ht
      have := (hg _ (mm t ht)).comp t ((hasDerivAt_id t).const_sub x)
      simpa [Function.comp_def] using this
    have s2 : ∀ t ∈ Set.Icc 0 h, |f2 (x + t) - f2 (x - t)| ≤ 2 * M * t := by
      refine grow (u' := fun t => f3 (x + t) - -f3 (x - t)) (b' := fun _ => 2 * M) (by simp) (by simp)
        (fun t ht => (cp d3 t ht).sub (cm d3 t ht)) (fun t => by simpa using (hasDerivAt_id t).const_mul (2 * M)) ?_
      intro t ht
      have h1 := hM _ (mp t ht)
      have h2 := hM _ (mm t ht)
      rw [sub_neg_eq_add]
      exact (abs_add_le _ _).trans (by linarith)
    have s1 : ∀ t ∈ Set.Icc 0 h, |f1 (x + t) + f1 (x - t) - 2 * f1 x| ≤ M * t ^ 2 := by
      refine grow (u' := fun t => f2 (x + t) + -f2 (x - t)) (b' := fun t => 2 * M * t) (by simp; ring) (by simp)
        (fun t ht => ((cp d2 t ht).add (cm d2 t ht)).sub_const _) (fun t => ?_) ?_
      · refine ((hasDerivAt_pow 2 t).const_mul M).congr_deriv ?_
        push_cast; ring
      · intro t ht
        rw [← sub_eq_add_neg]
        exact s2 t ht
    have s0 : ∀ t ∈ Set.Icc 0 h, |f (x + t) - f (x - t) - 2 * f1 x * t| ≤ M * t ^ 3 / 3 := by
      refine grow (u' := fun t => f1 (x + t) - -f1 (x - t) - 2 * f1 x) (b' := fun t => M * t ^ 2) (by simp) (by simp)
        (fun t ht => ((cp d1 t ht).sub (cm d1 t ht)).sub ?_) (fun t => ?_) ?_
      · simpa using (hasDerivAt_id t).const_mul (2 * f1 x)
      · refine (((hasDerivAt_pow 3 t).const_mul M).div_const 3).congr_deriv ?_
        push_cast; ring
      · intro t ht
        rw [sub_neg_eq_add]
        exact s1 t ht
    have := s0 h ⟨hh.le, le_refl _⟩
    have e : (f (x + h) - f (x - h)) / 2 / h - f1 x = (f (x + h) - f (x - h) - 2 * f1 x * h) / (2 * h) := by
      field_simp
    rw [e, abs_div, abs_of_pos (by positivity : 0 < 2 * h), div_le_iff₀ (by positivity)]
    calc _ ≤ M * h ^ 3 / 3 := this
      _ = M * h ^ 2 / 6 * (2 * h) := by ring

/-- The cosine at 0.3 with step 0.1. -/
example : ∃ D, centeredDifference (fun y => match y with | fin y => .ok (fin (Real.cos y)) | y => .ok y) (fin 0.3) (fin 0.1) =
    .ok (fin D) ∧ |D - (-Real.sin 0.3)| ≤ 1 * (0.1 : ℝ) ^ 2 / 6 :=
  difference_error Real.cos (fun y => -Real.sin y) (fun y => -Real.cos y) (fun y => -(-Real.sin y)) 0.3 0.1 1 (by norm_num)
    (fun y _ => Real.hasDerivAt_cos y) (fun y _ => (Real.hasDerivAt_sin y).neg) (fun y _ => (Real.hasDerivAt_cos y).neg)
    (fun y _ => by rw [neg_neg]; exact Real.abs_sin_le_one y)

/-! ### `pvsyst_temperature_coeff` -/

/-- A PVsyst module at reference irradiance. -/
structure Module where
  (α γ μ IL I0 Rsh R0 Rs Ns xp Eg E0 T0 : ℝ)

/-- The single diode cell of the module at cell temperature `T`. -/
def Module.cell (m : Module) (T : ℝ) : Cell where
  IL := m.IL + m.α * (T - m.T0)
  I0 := m.I0 * (kel T / kel m.T0) ^ 3 * Real.exp (qe * m.Eg / (kB * (m.γ + m.μ * (T - m.T0))) * (1 / kel m.T0 - 1 / kel T))
  Rs := m.Rs
  g := 1 / m.Rsh
  a := (m.γ + m.μ * (T - m.T0)) * kB / qe * (m.Ns * kel T)
  D := 0
  B := 0
  F := 0
  Vbr := -5.5
  m := 3.28

/-- The call. -/
def Module.coeff (m : Module) (s : Solvers) : Except PyErr Fl :=
  pvsystTemperatureCoeff s (fin m.α) (fin m.γ) (fin m.μ) (fin m.IL) (fin m.I0) (fin m.Rsh) (fin m.R0) (fin m.Rs) (fin m.Ns)
    (fin m.xp) (fin m.Eg) (fin m.E0) (fin m.T0)

/-- A sensible module: positive currents, resistances and cell count, and a shunt resistance that does not rise below its reference
value at reference irradiance. -/
structure Sensible (m : Module) : Prop where
  IL : 0 < m.IL
  I0 : 0 < m.I0
  Rsh : 0 < m.Rsh
  R0 : m.R0 * Real.exp (-m.xp) ≤ m.Rsh
  xp : 0 < m.xp
  Rs : 0 ≤ m.Rs
  Ns : 0 < m.Ns
  E0 : m.E0 ≠ 0
  T0 : 0 < kel m.T0

/-- At temperature `T` the module's current is not negative and its diode factor is positive. -/
def Good (m : Module) (T : ℝ) : Prop := 0 ≤ m.IL + m.α * (T - m.T0) ∧ 0 < m.γ + m.μ * (T - m.T0) ∧ 0 < kel T

/-- `P` is the largest power of the module at temperature `T`. -/
def IsMaxPower (m : Module) (T P : ℝ) : Prop :=
  (∃ i v, (m.cell T).Solves i v ∧ P = i * v) ∧ ∀ i v, (m.cell T).Solves i v → i * v ≤ P

private theorem unique {m : Module} {T P Q : ℝ} (h : IsMaxPower m T P) (h' : IsMaxPower m T Q) : P = Q := by
  obtain ⟨⟨i, v, hs, rfl⟩, hm⟩ := h
  obtain ⟨⟨i', v', hs', rfl⟩, hm'⟩ := h'
  exact le_antisymm (hm' _ _ hs) (hm _ _ hs')

private theorem physical {m : Module} (hm : Sensible m) {T : ℝ} (hT : Good m T) : Physical (m.cell T) := by
  obtain ⟨h1, h2, h3⟩ := hT
  have := hm.I0; have := hm.T0; have := hm.Ns; have := hm.Rsh
  have hk : 0 < kB := by unfold kB; norm_num
  have hq : 0 < qe := by unfold qe; norm_num
  refine ⟨h1, ?_, hm.Rs, ?_, ?_, le_refl _, fun h => absurd h (lt_irrefl _), rfl, ?_⟩
  · simp only [Module.cell]; positivity
  · simp only [Module.cell]; positivity
  · simp only [Module.cell]; positivity
  · simp only [Module.cell]; norm_num

private theorem matchesCell {m : Module} (hm : Sensible m) {T : ℝ} (hT : Good m T) :
    Matches (params (calcparamsPvsyst (fin m.E0) (fin T) (fin m.α) (fin m.γ) (fin m.μ) (fin m.IL) (fin m.I0) (fin m.Rsh) (fin m.R0)
      (fin m.Rs) (fin m.Ns) (fin m.xp) (fin m.Eg) (fin m.E0) (fin m.T0))) (m.cell T) := by
  obtain ⟨h1, h2, h3⟩ := hT
  have hk : kB ≠ 0 := by unfold kB; norm_num
  have hq : qe ≠ 0 := by unfold qe; norm_num
  have hlt : Real.exp (-m.xp) < 1 := by rw [Real.exp_lt_one_iff]; linarith [hm.xp]
  have eγ : pvsystGamma (fin T) (fin m.γ) (fin m.μ) (fin m.T0) = fin (m.γ + m.μ * (T - m.T0)) := by
    unfold pvsystGamma; rw [fin_sub, fin_mul, fin_add]
  refine ⟨?_, ?_, rfl, .inl ⟨m.Rsh, ?_, hm.Rsh.ne', rfl⟩, ?_, (physical hm ⟨h1, h2, h3⟩).a.ne', rfl, fun h => absurd h (lt_irrefl _), rfl, rfl, ?_, rfl⟩
  · simp only [params, calcparamsPvsyst, pvsystIL, Module.cell]
    simp only [fin_add, fin_sub, fin_mul]
    rw [fin_div hm.E0, fin_mul, div_self hm.E0, one_mul, fin_inj]
    ring
  · simp only [params, calcparamsPvsyst, eγ, Module.cell]
    unfold pvsystIo
    dsimp only
    rw [one_eq]
    have e1 : m.T0 + 273.15 ≠ 0 := by have := hm.T0; unfold kel at this; exact this.ne'
    have e2 : T + 273.15 ≠ 0 := by unfold kel at h3; exact h3.ne'
    simp only [fin_add, fin_mul]
    rw [fin_div e1, fin_pow, fin_mul, fin_div (mul_ne_zero hk h2.ne'), fin_div e1, fin_div e2, fin_sub, fin_mul, exp_fin, fin_mul]
  · simp only [params, calcparamsPvsyst]
    unfold pvsystRsh
    dsimp only
    rw [zero_eq, one_eq]
    simp only [neg_fin, exp_fin, fin_mul, fin_sub]
    rw [fin_div (by linarith), maximum_fin, fin_sub, fin_div hm.E0, exp_fin, fin_mul, fin_add, fin_inj,
      max_eq_right (div_nonneg (by linarith [hm.R0]) (by linarith)), mul_div_assoc, div_self hm.E0, mul_one]
    have : 1 - Real.exp (-m.xp) ≠ 0 := by linarith
    field_simp
    ring
  · simp only [params, calcparamsPvsyst, eγ, Module.cell]
    unfold pvsystNNsVth kel
    rw [fin_mul, fin_div hq, fin_add, fin_mul, fin_mul, fin_inj]
    ring
  · simp only [Module.cell]; norm_num

private theorem maxp_max {m : Module} (hm : Sensible m) {T : ℝ} (hT : Good m T) {s : Solvers} (hs : Roots (m.cell T) s) {y : Fl}
    (h : maxp s (fin m.α) (fin m.γ) (fin m.μ) (fin m.IL) (fin m.I0) (fin m.Rsh) (fin m.R0) (fin m.Rs) (fin m.Ns) (fin m.xp) (fin m.Eg)
      (fin m.E0) (fin m.T0) (fin T) = .ok y) : ∃ P, y = fin P ∧ IsMaxPower m T P := by
  unfold maxp at h
  split at h
  · exact absurd h (by simp)
  · rename_i r hr
    obtain ⟨i, v, rfl, hsol, -, -, hmax⟩ := SingleDiode.mpp_is_max (matchesCell hm hT) (physical hm hT) s hs _ r hr
    simp only [Except.ok.injEq] at h
    exact ⟨i * v, h.symm, ⟨i, v, hsol, rfl⟩, hmax⟩

private theorem positive {m : Module} (hm : Sensible m) (hγ : 0 < m.γ) {P : ℝ} (hP : IsMaxPower m m.T0 P) : 0 < P := by
  set c := m.cell m.T0 with hc
  have hg : Good m m.T0 := ⟨by simpa using hm.IL.le, by simpa using hγ, hm.T0⟩
  have ph : Physical c := physical hm hg
  have cur : ∀ x, c.current x = c.IL - c.I0 * (Real.exp (x / c.a) - 1) - x * c.g := by
    intro x
    unfold Cell.current Cell.recomb Cell.avalanche
    simp [hc, Module.cell]
  have hIL : 0 < c.IL := by simp only [hc, Module.cell, sub_self, mul_zero, add_zero]; exact hm.IL
  have cont : Continuous c.current := by
    have : c.current = fun x => c.IL - c.I0 * (Real.exp (x / c.a) - 1) - x * c.g := funext cur
    rw [this]; fun_prop
  have hv := SingleDiode.voc_bound ph (fun h => absurd h (lt_irrefl _))
  have h0 : 0 < c.current 0 := by rw [cur]; simpa using hIL
  obtain ⟨x0, ⟨hx0, -⟩, hx⟩ := intermediate_value_Icc' (SingleDiode.voc_nonneg ph) cont.continuousOn ⟨hv.2.1, h0.le⟩
  have hx0' : 0 < x0 := lt_of_le_of_ne hx0 (by rintro rfl; rw [hx] at h0; exact lt_irrefl _ h0)
  have contv : Continuous c.voltage := continuous_id.sub (cont.mul continuous_const)
  have hvx : 0 < c.voltage x0 := by unfold Cell.voltage; rw [hx]; simpa using hx0'
  have hev : ∀ᶠ y in nhds x0, 0 < c.voltage y := contv.continuousAt.eventually (lt_mem_nhds hvx)
  obtain ⟨d, hd, hball⟩ := Metric.eventually_nhds_iff.mp hev
  have hy : x0 - d / 2 < x0 := by linarith
  have h1 : 0 < c.voltage (x0 - d / 2) := hball (by rw [Real.dist_eq]; rw [abs_lt]; constructor <;> linarith)
  have h2 : 0 < c.current (x0 - d / 2) := by
    have := SingleDiode.current_strictAnti ph hy (fun h => absurd h (lt_irrefl _))
    rwa [hx] at this
  exact (mul_pos h2 h1).trans_le (hP.2 _ _ ((SingleDiode.solves_iff c _ _).mpr ⟨_, fun h => absurd h (lt_irrefl _), rfl, rfl⟩))

/-- **C152.**  Whatever the root finder, the value returned for a sensible PVsyst module is the difference of the true maximum powers a
cube root of machine epsilon above and below the reference temperature, over twice that step, over the true maximum power at the reference
temperature (which is positive); each maximum is over the whole curve of the module's single diode equation at that temperature. -/
theorem temperature_coeff {m : Module} (hm : Sensible m) (hγ : 0 < m.γ) (h : ℝ) (hh : h = (2 : ℝ) ^ (-(52 : ℝ) / 3))
    (hp : Good m (m.T0 + h)) (hn : Good m (m.T0 - h)) (s : Solvers) (hs : ∀ T, Roots (m.cell T) s) (y : Fl) (hy : m.coeff s = .ok y) :
    ∃ P Pup Pdn, IsMaxPower m m.T0 P ∧ IsMaxPower m (m.T0 + h) Pup ∧ IsMaxPower m (m.T0 - h) Pdn ∧ 0 < P ∧
      y = fin ((Pup - Pdn) / (2 * h) / P) := by
  have hh0 : 0 < h := by rw [hh]; positivity
  unfold Module.coeff pvsystTemperatureCoeff at hy
  dsimp only at hy
  split at hy
  · exact absurd hy (by simp)
  rename_i p hpe
  have hg : Good m m.T0 := ⟨by simpa using hm.IL.le, by simpa using hγ, hm.T0⟩
  obtain ⟨P, rfl, hP⟩ := maxp_max hm hg (hs _) hpe
  split at hy
  · exact absurd hy (by simp)
  rename_i q hqe
  unfold centeredDifference DX at hqe
  rw [← hh, fin_add, fin_sub] at hqe
  split at hqe
  · exact absurd hqe (by simp)
  rename_i b hb
  obtain ⟨Pup, rfl, hPup⟩ := maxp_max hm hp (hs _) hb
  split at hqe
  · exact absurd hqe (by simp)
  rename_i a ha
  obtain ⟨Pdn, rfl, hPdn⟩ := maxp_max hm hn (hs _) ha
  have hpos := positive hm hγ hP
  refine ⟨P, Pup, Pdn, hP, hPup, hPdn, hpos, ?_⟩
  have e2 : (2 : Fl) = fin 2 := ofNat_eq
  simp only [Except.ok.injEq] at hy hqe
  rw [← hy, ← hqe, e2, fin_sub, fin_div (by norm_num), fin_div hh0.ne', fin_div hpos.ne', div_div _ _ h]

/-- **C152, accuracy.**  If `P` is the maximum power as a function of temperature, with three derivatives around the reference
temperature, the third at most `M` in size, the value returned is within `M h² / (6 P)` of the relative derivative `P' / P`. -/
theorem temperature_coeff_error {m : Module} (hm : Sensible m) (hγ : 0 < m.γ) (h : ℝ) (hh : h = (2 : ℝ) ^ (-(52 : ℝ) / 3))
    (hp : Good m (m.T0 + h)) (hn : Good m (m.T0 - h)) (s : Solvers) (hs : ∀ T, Roots (m.cell T) s) (y : Fl) (hy : m.coeff s = .ok y)
    (P P1 P2 P3 : ℝ → ℝ) (M : ℝ) (hP : ∀ T ∈ Set.Icc (m.T0 - h) (m.T0 + h), IsMaxPower m T (P T))
    (d1 : ∀ T ∈ Set.Icc (m.T0 - h) (m.T0 + h), HasDerivAt P (P1 T) T) (d2 : ∀ T ∈ Set.Icc (m.T0 - h) (m.T0 + h), HasDerivAt P1 (P2 T) T)
    (d3 : ∀ T ∈ Set.Icc (m.T0 - h) (m.T0 + h), HasDerivAt P2 (P3 T) T) (hM : ∀ T ∈ Set.Icc (m.T0 - h) (m.T0 + h), |P3 T| ≤ M) :
    ∃ x, y = fin x ∧ |x - P1 m.T0 / P m.T0| ≤ M * h ^ 2 / 6 / P m.T0 := by
  have hh0 : 0 < h := by rw [hh]; positivity
  obtain ⟨Q, Qup, Qdn, h1, h2, h3, hpos, rfl⟩ := temperature_coeff hm hγ h hh hp hn s hs y hy
  have e1 := unique h1 (hP m.T0 ⟨by linarith, by linarith⟩)
  have e2 := unique h2 (hP (m.T0 + h) ⟨by linarith, by linarith⟩)
  have e3 := unique h3 (hP (m.T0 - h) ⟨by linarith, by linarith⟩)
  refine ⟨_, rfl, ?_⟩
  obtain ⟨D, hD, herr⟩ := difference_error P P1 P2 P3 m.T0 h M hh0 d1 d2 d3 hM
  have e2' : (2 : Fl) = fin 2 := ofNat_eq
  unfold centeredDifference at hD
  simp only [fin_add, fin_sub] at hD
  rw [e2', fin_div (by norm_num), fin_div hh0.ne'] at hD
  simp only [Except.ok.injEq, fin_inj] at hD
  rw [e1, e2, e3, ← div_div, hD, div_sub_div_same, abs_div, abs_of_pos (a := P m.T0) (e1 ▸ hpos)]
  exact div_le_div_of_nonneg_right herr (e1 ▸ hpos).le

/-- An exception is the one the maximum power point raised at the reference temperature or a step beside it. -/
theorem temperature_coeff_raises (m : Module) (s : Solvers) (e : PyErr) (h : m.coeff s = .error e) :
    ∃ T : Fl, (T = fin m.T0 ∨ T = fin m.T0 + DX ∨ T = fin m.T0 - DX) ∧
      bishop88Mpp s (params (calcparamsPvsyst (fin m.E0) T (fin m.α) (fin m.γ) (fin m.μ) (fin m.IL) (fin m.I0) (fin m.Rsh) (fin m.R0)
        (fin m.Rs) (fin m.Ns) (fin m.xp) (fin m.Eg) (fin m.E0) (fin m.T0))) = .error e := by
  have key : ∀ T e, maxp s (fin m.α) (fin m.γ) (fin m.μ) (fin m.IL) (fin m.I0) (fin m.Rsh) (fin m.R0) (fin m.Rs) (fin m.Ns) (fin m.xp)
      (fin m.Eg) (fin m.E0) (fin m.T0) T = .error e → bishop88Mpp s (params (calcparamsPvsyst (fin m.E0) T (fin m.α) (fin m.γ) (fin m.μ)
        (fin m.IL) (fin m.I0) (fin m.Rsh) (fin m.R0) (fin m.Rs) (fin m.Ns) (fin m.xp) (fin m.Eg) (fin m.E0) (fin m.T0))) = .error e := by
    intro T e h
    unfold maxp at h
    split at h
    · rename_i e' he; rw [he]; simpa using h
    · exact absurd h (by simp)
  unfold Module.coeff pvsystTemperatureCoeff at h
  dsimp only at h
  split at h
  · rename_i e' he
    simp only [Except.error.injEq] at h
    exact ⟨_, .inl rfl, key _ _ (h ▸ he)⟩
  split at h
  · rename_i e' he
    simp only [Except.error.injEq] at h
    subst h
    unfold centeredDifference at he
    split at he
    · rename_i e2 h2
      simp only [Except.error.injEq] at he
      exact ⟨_, .inr (.inl rfl), key _ _ (he ▸ h2)⟩
    split at he
    · rename_i e2 h2
      simp only [Except.error.injEq] at he
      exact ⟨_, .inr (.inr rfl), key _ _ (he ▸ h2)⟩
    · exact absurd he (by simp)
  · exact absurd h (by simp)

/-- The module of the pvlib tests. -/
private def sample : Module := ⟨0.004, 1.0, 0.0003, 6, 5e-9, 300, 1000, 0.3, 60, 5.5, 1.121, 1000, 25⟩

example : Sensible sample ∧ 0 < sample.γ ∧ (∀ h, |h| < 1 → Good sample (sample.T0 + h)) := by
  have hlt : Real.exp (-5.5) ≤ 0.3 := by
    have h1 : Real.exp (-5.5) = (Real.exp 5.5)⁻¹ := Real.exp_neg _
    have h2 : (5.5 : ℝ) + 1 ≤ Real.exp 5.5 := Real.add_one_le_exp _
    rw [h1]
    calc (Real.exp 5.5)⁻¹ ≤ (6.5 : ℝ)⁻¹ := inv_anti₀ (by norm_num) (by linarith)
      _ ≤ 0.3 := by norm_num
  refine ⟨⟨?_, ?_, ?_, ?_, ?_, ?_, ?_, ?_, ?_⟩, ?_, ?_⟩
  · norm_num [sample]
  · norm_num [sample]
  · norm_num [sample]
  · simp only [sample]; norm_num at hlt ⊢; linarith
  · norm_num [sample]
  · norm_num [sample]
  · norm_num [sample]
  · norm_num [sample]
  · norm_num [sample, kel]
  · norm_num [sample]
  · intro h hh
    rw [abs_lt] at hh
    simp only [Good, sample, kel]
    norm_num
    refine ⟨by linarith, by linarith, by linarith⟩

/-- A root finder as assumed exists, for every module at every temperature at once; and it returns whenever there is a root. -/
theorem roots_exist : ∃ s : Solvers, (∀ (m : Module) T, Roots (m.cell T) s) ∧
    ∀ f f' x0, (∃ x, f (fin x) = fin 0 ∧ -5.5 < x) → ∃ y, s.newton f f' x0 = .ok y := by
  let pick : (Fl → Fl) → Except PyErr Fl := fun f =>
    if h : ∃ x, f (fin x) = fin 0 ∧ -5.5 < x then .ok (fin h.choose) else .error .runtimeError
  have hpick : ∀ f y, pick f = .ok y → ∃ x, y = fin x ∧ f (fin x) = fin 0 ∧ (-5.5 : ℝ) < x := by
    intro f y h
    simp only [pick] at h
    split at h
    · rename_i hx
      simp only [Except.ok.injEq] at h
      exact ⟨hx.choose, h.symm, hx.choose_spec⟩
    · exact absurd h (by simp)
  refine ⟨⟨fun f _ _ => pick f, fun f _ _ => pick f, fun f _ _ => pick f⟩, ?_, ?_⟩
  · intro m T
    have : ∀ f y, pick f = .ok y → ∃ x, y = fin x ∧ f (fin x) = fin 0 ∧ (m.cell T).dom x ∧ (m.cell T).Vbr < x := by
      intro f y h
      obtain ⟨x, h1, h2, h3⟩ := hpick f y h
      exact ⟨x, h1, h2, fun h => absurd h (lt_irrefl _), h3⟩
    exact ⟨fun f _ _ y h => this f y h, fun f _ _ y h => this f y h, fun f _ _ y h => this f y h⟩
  · intro f f' x0 h
    exact ⟨_, dif_pos h⟩

/-! ### `fit_cec_sam` -/

private theorem takeKeys_ok (d : PyDict Fl) (ks : List String) (xs : List Fl) :
    takeKeys d ks = .ok xs ↔ ks.map (fun k => d.get? k) = xs.map some := by
  induction ks generalizing xs with
  | nil => cases xs <;> simp [takeKeys]
  | cons k ks ih =>
    unfold takeKeys
    cases hk : d.get? k with
    | none => cases xs <;> simp [hk]
    | some x =>
      dsimp only
      cases hr : takeKeys d ks with
      | error e =>
        simp only [reduceCtorEq, false_iff]
        intro h
        cases xs with
        | nil => simp at h
        | cons y ys =>
          simp only [List.map_cons, List.cons.injEq] at h
          have := (ih ys).mpr h.2
          rw [hr] at this
          exact absurd this (by simp)
      | ok ys =>
        have := (ih ys).mp hr
        cases xs with
        | nil => simp
        | cons y zs =>
          simp only [Except.ok.injEq, List.cons.injEq, List.map_cons, hk, Option.some.injEq, this]
          refine and_congr Iff.rfl ⟨fun h => by rw [h], fun h => ?_⟩
          exact List.map_injective_iff.mpr (Option.some_injective _) h

private theorem takeKeys_error (d : PyDict Fl) (ks : List String) (e : PyErr) :
    takeKeys d ks = .error e ↔ ∃ a k b, ks = a ++ k :: b ∧ (∀ j ∈ a, d.get? j ≠ none) ∧ d.get? k = none ∧ e = .keyError k := by
  induction ks generalizing e with
  | nil => simp [takeKeys]
  | cons k ks ih =>
    unfold takeKeys
    cases hk : d.get? k with
    | none =>
      simp only [Except.error.injEq]
      constructor
      · rintro rfl; exact ⟨[], k, ks, rfl, by simp, hk, rfl⟩
      · rintro ⟨a, j, b, h, ha, hj, rfl⟩
        cases a with
        | nil => simp only [List.nil_append, List.cons.injEq] at h; rw [h.1]
        | cons c a =>
          simp only [List.cons_append, List.cons.injEq] at h
          exact absurd (h.1 ▸ hk) (ha c (by simp))
    | some x =>
      dsimp only
      have hiff : (∃ a j b, k :: ks = a ++ j :: b ∧ (∀ i ∈ a, d.get? i ≠ none) ∧ d.get? j = none ∧ e = .keyError j) ↔
          takeKeys d ks = .error e := by
        rw [ih]
        constructor
        · rintro ⟨a, j, b, h, ha, hj, he⟩
          cases a with
          | nil =>
            simp only [List.nil_append, List.cons.injEq] at h
            rw [← h.1, hk] at hj
            exact absurd hj (by simp)
          | cons c a =>
            simp only [List.cons_append, List.cons.injEq] at h
            exact ⟨a, j, b, h.2, fun i hi => ha i (by simp [hi]), hj, he⟩
        · rintro ⟨a, j, b, rfl, ha, hj, he⟩
          refine ⟨k :: a, j, b, rfl, ?_, hj, he⟩
          intro i hi
          rcases List.mem_cons.mp hi with rfl | hi
          · simp [hk]
          · exact ha i hi
      rw [hiff]
      cases takeKeys d ks <;> simp

/-- **C153.**  `fit_cec_sam` hands PySAM the eleven named values of the module, whatever they are; returns, in this order,
`I_L_ref, I_o_ref, R_s, R_sh_ref, a_ref, Adjust` as PySAM gives them under `Il, Io, Rs, Rsh, a, Adj`; raises RuntimeError exactly when
PySAM's `cmod_success` is anything but 1 (NaN too), and KeyError exactly when PySAM's answer lacks `cmod_success`, or reports success and
lacks one of the six names (the first missing is named).  Without PySAM it returns nothing (ImportError). -/
theorem cec_sam (f : PyDict SamVal → PyDict Fl) (ct : String) (vmp imp voc isc α β γ n t : Fl) :
    ∃ args : PyDict SamVal,
      (∀ k, args.get? k = if k = "tech_model" then some (.str "6parsolve") else if k = "financial_model" then some .none else
        if k = "celltype" then some (.str ct) else if k = "Vmp" then some (.num vmp) else if k = "Imp" then some (.num imp) else
        if k = "Voc" then some (.num voc) else if k = "Isc" then some (.num isc) else if k = "alpha_isc" then some (.num α) else
        if k = "beta_voc" then some (.num β) else if k = "gamma_pmp" then some (.num γ) else if k = "Nser" then some (.num n) else
        if k = "Tref" then some (.num t) else none) ∧
      (∀ IL I0 Rs Rsh a adj, fitCecSam (some f) ct vmp imp voc isc α β γ n t = some (.ok [IL, I0, Rs, Rsh, a, adj]) ↔
        (f args).get? "cmod_success" = some 1 ∧ (f args).get? "Il" = some IL ∧ (f args).get? "Io" = some I0 ∧
        (f args).get? "Rs" = some Rs ∧ (f args).get? "Rsh" = some Rsh ∧ (f args).get? "a" = some a ∧ (f args).get? "Adj" = some adj) ∧
      (∀ xs, fitCecSam (some f) ct vmp imp voc isc α β γ n t = some (.ok xs) → xs.length = 6) ∧
      (fitCecSam (some f) ct vmp imp voc isc α β γ n t = some (.error .runtimeError) ↔
        ∃ c, (f args).get? "cmod_success" = some c ∧ c ≠ 1) ∧
      (∀ k, fitCecSam (some f) ct vmp imp voc isc α β γ n t = some (.error (.keyError k)) ↔
        (k = "cmod_success" ∧ (f args).get? k = none) ∨
        ((f args).get? "cmod_success" = some 1 ∧ ∃ a b, ["Il", "Io", "Rs", "Rsh", "a", "Adj"] = a ++ k :: b ∧
          (∀ j ∈ a, (f args).get? j ≠ none) ∧ (f args).get? k = none)) ∧
      fitCecSam none ct vmp imp voc isc α β γ n t = none := by
  refine ⟨[("tech_model", .str "6parsolve"), ("financial_model", .none), ("celltype", .str ct), ("Vmp", .num vmp),
      ("Imp", .num imp), ("Voc", .num voc), ("Isc", .num isc), ("alpha_isc", .num α), ("beta_voc", .num β),
      ("gamma_pmp", .num γ), ("Nser", .num n), ("Tref", .num t)], ?_, ?_⟩
  · intro k
    simp only [PyDict.get?, eq_comm (b := k)]
  generalize hargs : ([("tech_model", .str "6parsolve"), ("financial_model", .none), ("celltype", .str ct), ("Vmp", .num vmp),
      ("Imp", .num imp), ("Voc", .num voc), ("Isc", .num isc), ("alpha_isc", .num α), ("beta_voc", .num β),
      ("gamma_pmp", .num γ), ("Nser", .num n), ("Tref", .num t)] : PyDict SamVal) = args
  have hdef : fitCecSam (some f) ct vmp imp voc isc α β γ n t = match (f args).get? "cmod_success" with
      | none => some (.error (.keyError "cmod_success"))
      | some c => if c = 1 then some (takeKeys (f args) ["Il", "Io", "Rs", "Rsh", "a", "Adj"]) else some (.error .runtimeError) := by
    rw [← hargs]
    unfold fitCecSam
    dsimp only
    generalize f _ = res
    cases res.get? "cmod_success" with
    | none => rfl
    | some c => by_cases hc : c = 1 <;> simp only [hc, if_true, if_false]
  rw [hdef]
  cases hc : (f args).get? "cmod_success" with
  | none =>
    refine ⟨by simp, by simp, by simp, ?_, rfl⟩
    intro k
    simp only [Option.some.injEq, Except.error.injEq, PyErr.keyError.injEq, reduceCtorEq, false_and, or_false]
    exact ⟨fun h => ⟨h.symm, h ▸ hc⟩, fun h => h.1.symm⟩
  | some c =>
    dsimp only
    by_cases h1 : c = 1
    · rw [if_pos h1]
      subst h1
      refine ⟨?_, ?_, ?_, ?_, rfl⟩
      · intro IL I0 Rs Rsh a adj
        rw [Option.some.injEq, takeKeys_ok]
        simp
      · intro xs h
        rw [Option.some.injEq, takeKeys_ok] at h
        have := congrArg List.length h
        simpa using this.symm
      · rw [Option.some.injEq, takeKeys_error]
        simp
      · intro k
        rw [Option.some.injEq, takeKeys_error]
        constructor
        · rintro ⟨a, j, b, h, ha, hj, he⟩
          simp only [PyErr.keyError.injEq] at he
          subst he
          exact .inr ⟨rfl, a, b, h, ha, hj⟩
        · rintro (⟨rfl, h⟩ | ⟨-, a, b, h, ha, hj⟩)
          · rw [hc] at h; exact absurd h (by simp)
          · exact ⟨a, k, b, h, ha, hj, rfl⟩
    · rw [if_neg h1]
      have h1' : c ≠ fin 1 := by rw [← one_eq]; exact h1
      refine ⟨by simp [h1'], by simp, by simp [h1'], ?_, rfl⟩
      intro k
      simp only [Option.some.injEq, Except.error.injEq, reduceCtorEq, h1, false_and, or_false, false_iff, not_and]
      rintro rfl
      rw [hc]; simp

end Pvlib.Props.SdmCoeff
end
