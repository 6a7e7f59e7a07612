import Verif.Model.Sdm
import Verif.Props.Cocontent
import Verif.Props.LambertWAcc

/-! # Properties C149 (`fit_desoto`) and C150 (`fit_desoto_batzelis`) -/

noncomputable section
open scoped Classical
namespace Pvlib.Props.SdmDesoto
open Fl Pvlib.Tools Pvlib.PvFunctions Pvlib.SingleDiode Pvlib.Sdm Pvlib.Props.SandiaSimple Pvlib.Props.Cocontent

/-! ### C149 -/

/-- The left side of the single diode equation is increasing in the current. -/
private def resid (IL I0 Rs Rsh a v i : ℝ) : ℝ := i - IL + I0 * (Real.exp ((v + i * Rs) / a) - 1) + (v + i * Rs) / Rsh

private theorem onCurve_iff {IL I0 Rs Rsh a v i : ℝ} : OnCurve IL I0 Rs Rsh a v i ↔ resid IL I0 Rs Rsh a v i = 0 := by
  unfold OnCurve resid
  constructor <;> intro h <;> linarith

private theorem resid_mono {IL I0 Rs Rsh a : ℝ} (hI0 : 0 ≤ I0) (hRs : 0 ≤ Rs) (hRsh : 0 < Rsh) (ha : 0 < a) (v : ℝ) {i j : ℝ}
    (h : i ≤ j) : resid IL I0 Rs Rsh a v i + (j - i) ≤ resid IL I0 Rs Rsh a v j := by
  unfold resid
  have h1 : v + i * Rs ≤ v + j * Rs := by nlinarith
  have h2 : Real.exp ((v + i * Rs) / a) ≤ Real.exp ((v + j * Rs) / a) := Real.exp_le_exp.mpr (div_le_div_of_nonneg_right h1 ha.le)
  have h3 : (v + i * Rs) / Rsh ≤ (v + j * Rs) / Rsh := div_le_div_of_nonneg_right h1 hRsh.le
  have h4 := mul_le_mul_of_nonneg_left h2 hI0
  linarith

private theorem onCurve_unique {IL I0 Rs Rsh a : ℝ} (hI0 : 0 ≤ I0) (hRs : 0 ≤ Rs) (hRsh : 0 < Rsh) (ha : 0 < a) {v i j : ℝ}
    (h1 : OnCurve IL I0 Rs Rsh a v i) (h2 : OnCurve IL I0 Rs Rsh a v j) : i = j := by
  rw [onCurve_iff] at h1 h2
  rcases le_total i j with h | h
  · have := resid_mono (IL := IL) hI0 hRs hRsh ha v h; linarith
  · have := resid_mono (IL := IL) hI0 hRs hRsh ha v h; linarith

/-- Every module has an I-V curve. -/
theorem curve_exists (IL : ℝ) {I0 Rs Rsh a : ℝ} (hI0 : 0 ≤ I0) (hRs : 0 ≤ Rs) (hRsh : 0 < Rsh) (ha : 0 < a) :
    ∃ I, IsCurve IL I0 Rs Rsh a I := by
  have key : ∀ v, ∃ i, OnCurve IL I0 Rs Rsh a v i := by
    intro v
    set f := resid IL I0 Rs Rsh a v with hf
    have hc : Continuous f := by rw [hf]; unfold resid; fun_prop
    set r := |f 0| with hr
    have h1 : f (-r) ≤ 0 := by
      have := resid_mono (IL := IL) hI0 hRs hRsh ha v (i := -r) (j := 0) (by have := abs_nonneg (f 0); linarith)
      rw [← hf] at this
      have := le_abs_self (f 0)
      linarith
    have h2 : 0 ≤ f r := by
      have := resid_mono (IL := IL) hI0 hRs hRsh ha v (i := 0) (j := r) (abs_nonneg _)
      rw [← hf] at this
      have := neg_abs_le (f 0)
      linarith
    have hle : -r ≤ r := by have := abs_nonneg (f 0); linarith
    obtain ⟨i, -, hi⟩ := intermediate_value_Icc hle hc.continuousOn ⟨h1, h2⟩
    exact ⟨i, onCurve_iff.mpr hi⟩
  exact ⟨fun v => Classical.choose (key v), fun v => Classical.choose_spec (key v)⟩

example := curve_exists 9 (I0 := 1e-9) (Rs := 0.3) (Rsh := 300) (a := 1.5) (by norm_num) (by norm_num) (by norm_num) (by norm_num)

private theorem expm1_fin (x : ℝ) : expm1 (fin x) = fin (Real.exp x - 1) := rfl

/-- **C149, the system of equations.**  Let `I` be the I-V curve of the sought module, and let `calcparams_desoto`, 2 degrees above
the reference temperature, give the parameters `IL2, Io2, Rs2, Rsh2, a2`.  All five equations hold exactly if the curve has the given
short circuit current, open circuit voltage and maximum power point, its power is stationary there, and the open circuit voltage at
the higher temperature is the given one plus `2 beta_voc`. -/
theorem system_iff {IL Io Rs Rsh a : ℝ} (hIo : 0 ≤ Io) (hRs : 0 ≤ Rs) (hRsh : 0 < Rsh) (ha : 0 < a) {I : ℝ → ℝ}
    (hI : IsCurve IL Io Rs Rsh a I) (isc voc imp vmp β α Eg d tref G : ℝ) (hG : G ≠ 0) (hT : 0 < tref + 273.15)
    {IL2 Io2 Rs2 Rsh2 a2 : ℝ}
    (h2 : calcparamsDesoto (fin G) (fin (tref + 2)) (fin α) (fin a) (fin IL) (fin Io) (fin Rsh) (fin Rs) (fin Eg) (fin d) (fin G)
      (fin tref) = ⟨fin IL2, fin Io2, fin Rs2, fin Rsh2, fin a2⟩) :
    desotoSystem ⟨fin isc, fin voc, fin imp, fin vmp, fin β, fin α, fin Eg, fin d, fin tref + fin 273.15, fin kEV⟩
      ⟨fin IL, fin Io, fin Rs, fin Rsh, fin a⟩ = [0, 0, 0, 0, 0] ↔
    I 0 = isc ∧ I voc = 0 ∧ I vmp = imp ∧ HasDerivAt (fun v => v * I v) 0 vmp ∧ OnCurve IL2 Io2 Rs2 Rsh2 a2 (voc + 2 * β) 0 := by
  have hk : kEV ≠ 0 := by unfold kEV; norm_num
  have e2 : (2 : Fl) = fin 2 := ofNat_eq
  have hT2 : 0 < tref + 2 + 273.15 := by linarith
  have hT2' : 0 < tref + 273.15 + 2 := by linarith
  -- the parameters at the higher temperature
  simp only [calcparamsDesoto, Five.mk.injEq] at h2
  simp only [one_eq, fin_add, fin_sub, fin_mul] at h2
  rw [fin_div hG, fin_mul, fin_div hT.ne', fin_pow, fin_mul, fin_div (mul_ne_zero hk hT.ne'), fin_div (mul_ne_zero hk hT2.ne'), fin_sub,
    exp_fin, fin_mul, fin_mul, fin_mul] at h2
  simp only [fin_inj] at h2
  obtain ⟨q1, q2, q3, q4, q5⟩ := h2
  have ha2 : a2 = a * (tref + 273.15 + 2) / (tref + 273.15) := by rw [← q5]; field_simp; ring
  have ha20 : a * (tref + 273.15 + 2) / (tref + 273.15) ≠ 0 := by positivity
  have hR2 : Rsh2 = Rsh := by rw [← q4]; field_simp
  -- the slope
  set X := Io / a * Real.exp ((vmp + imp * Rs) / a) with hX
  have hXn : 0 ≤ X := by positivity
  have hD : (1 + Io * Rs / a * Real.exp ((vmp + imp * Rs) / a) + Rs / Rsh) ≠ 0 := by positivity
  -- each equation
  unfold desotoSystem
  dsimp only
  rw [e2, one_eq]
  simp only [neg_fin, fin_add, fin_sub, fin_mul]
  simp only [fin_div ha.ne', fin_div hRsh.ne', fin_div hT.ne', fin_div hT2'.ne', fin_div hk, exp_fin, fin_mul, fin_add, fin_sub, fin_pow,
    expm1_fin, fin_div hD, fin_div ha20]
  simp only [zero_eq, List.cons.injEq, fin_inj, and_true]
  refine and_congr ?_ (and_congr ?_ ?_)
  · constructor
    · intro h
      refine onCurve_unique hIo hRs hRsh ha (hI 0) ?_
      rw [onCurve_iff]; unfold resid; rw [zero_add]; exact h
    · intro h
      have := hI 0
      rw [h, onCurve_iff] at this; unfold resid at this; rw [zero_add] at this; exact this
  · constructor
    · intro h
      refine onCurve_unique hIo hRs hRsh ha (hI voc) ?_
      rw [onCurve_iff]; unfold resid; rw [zero_mul, add_zero, zero_sub]; exact h
    · intro h
      have := hI voc
      rw [h, onCurve_iff] at this; unfold resid at this; rw [zero_mul, add_zero, zero_sub] at this; exact this
  · have hm : (imp - IL + Io * (Real.exp ((vmp + imp * Rs) / a) - 1) + (vmp + imp * Rs) / Rsh = 0) ↔ I vmp = imp := by
      constructor
      · intro h
        refine onCurve_unique hIo hRs hRsh ha (hI vmp) ?_
        rw [onCurve_iff]; exact h
      · intro h
        have := hI vmp
        rw [h, onCurve_iff] at this; exact this
    rw [hm]
    refine and_congr_right fun him => and_congr ?_ ?_
    · have hd := (hasDerivAt_id vmp).mul (hasDerivAt_curve hIo hRs hRsh ha hI vmp)
      have hval : (1 * I vmp + id vmp * (-(Io / a * Real.exp ((vmp + I vmp * Rs) / a) + 1 / Rsh) /
          (1 + Rs * (Io / a * Real.exp ((vmp + I vmp * Rs) / a) + 1 / Rsh)))) =
          imp - vmp * (X + 1 / Rsh) / (1 + Io * Rs / a * Real.exp ((vmp + imp * Rs) / a) + Rs / Rsh) := by
        rw [him, ← hX, show (1 + Rs * (X + 1 / Rsh)) = 1 + Io * Rs / a * Real.exp ((vmp + imp * Rs) / a) + Rs / Rsh by
          rw [hX]; field_simp; ring]
        simp only [id]
        ring
      rw [hval] at hd
      constructor
      · intro h
        rw [h] at hd
        exact hd
      · intro h
        exact hd.unique h
    · rw [onCurve_iff]
      unfold resid
      have hIL : IL2 = IL + α * (tref + 273.15 + 2 - (tref + 273.15)) := by rw [← q1]; field_simp; ring
      have hIo2 : Io2 = Io * ((tref + 273.15 + 2) / (tref + 273.15)) ^ 3 *
          Real.exp (1 / kEV * (Eg / (tref + 273.15) - Eg * (1 + d * (tref + 273.15 + 2 - (tref + 273.15))) / (tref + 273.15 + 2))) := by
        rw [← q2, show tref + 2 + 273.15 = tref + 273.15 + 2 by ring]
        congr 2
        field_simp
      rw [hIL, hIo2, ha2, hR2, zero_mul, add_zero, zero_sub,
        show (tref + 273.15 + 2 - (tref + 273.15)) * β + voc = voc + 2 * β by ring]

/-- The keys `fit_desoto` accepts in `init_guess`. -/
def guessKeys : List String := ["IL_0", "Io_0", "Rs_0", "Rsh_0", "a_0"]

private theorem guessStep_ok (u : Unknowns) (k : String) (x : Fl) : (∃ u', guessStep u k x = .ok u') ↔ k ∈ guessKeys := by
  unfold guessStep guessKeys
  simp only [List.mem_cons, List.not_mem_nil, or_false]
  by_cases h1 : k = "IL_0"; · simp [h1]
  by_cases h2 : k = "Io_0"; · simp [h2]
  by_cases h3 : k = "Rs_0"; · simp [h3]
  by_cases h4 : k = "Rsh_0"; · simp [h4]
  by_cases h5 : k = "a_0" <;> simp [h1, h2, h3, h4, h5]

private theorem guessStep_err (u : Unknowns) (k : String) (x : Fl) (e : PyErr) (h : guessStep u k x = .error e) : e = .valueError := by
  unfold guessStep at h
  split_ifs at h <;> simp_all

theorem guess_ok (g : PyDict Fl) : ∀ u : Unknowns, (∃ u', applyGuess u g = .ok u') ↔ ∀ k ∈ g.map Prod.fst, k ∈ guessKeys := by
  induction g with
  | nil => intro u; simp [applyGuess]
  | cons p g ih =>
    intro u
    simp only [applyGuess, List.map_cons, List.forall_mem_cons]
    rw [← guessStep_ok u p.1 p.2]
    cases h : guessStep u p.1 p.2 with
    | error e => simp
    | ok u' => simp [ih u']

private theorem guess_err (g : PyDict Fl) : ∀ (u : Unknowns) (e : PyErr), applyGuess u g = .error e → e = .valueError := by
  induction g with
  | nil => intro u e h; simp [applyGuess] at h
  | cons p g ih =>
    intro u e h
    simp only [applyGuess] at h
    cases h' : guessStep u p.1 p.2 with
    | error e' => rw [h'] at h; simp only [Except.error.injEq] at h; rw [← h]; exact guessStep_err u p.1 p.2 e' h'
    | ok u' => rw [h'] at h; exact ih u' e h

/-- The value a guess gives to a component (the last entry wins, dicts have one). -/
def lastOf (g : PyDict Fl) (k : String) (d : Fl) : Fl := g.foldl (fun acc p => if p.1 = k then p.2 else acc) d

/-- **C149, starting point.**  A guess with known keys replaces exactly the components it names. -/
theorem guess_value (g : PyDict Fl) : ∀ u u' : Unknowns, applyGuess u g = .ok u' →
    u'.IL = lastOf g "IL_0" u.IL ∧ u'.Io = lastOf g "Io_0" u.Io ∧ u'.Rs = lastOf g "Rs_0" u.Rs ∧
    u'.Rsh = lastOf g "Rsh_0" u.Rsh ∧ u'.a = lastOf g "a_0" u.a := by
  induction g with
  | nil => intro u u' h; simp only [applyGuess, Except.ok.injEq] at h; subst h; simp [lastOf]
  | cons p g ih =>
    intro u u' h
    simp only [applyGuess] at h
    cases h' : guessStep u p.1 p.2 with
    | error e => rw [h'] at h; simp at h
    | ok v =>
      rw [h'] at h
      have := ih v u' h
      unfold lastOf at this ⊢
      simp only [List.foldl_cons]
      have hv : v.IL = (if p.1 = "IL_0" then p.2 else u.IL) ∧ v.Io = (if p.1 = "Io_0" then p.2 else u.Io) ∧
          v.Rs = (if p.1 = "Rs_0" then p.2 else u.Rs) ∧ v.Rsh = (if p.1 = "Rsh_0" then p.2 else u.Rsh) ∧
          v.a = (if p.1 = "a_0" then p.2 else u.a) := by
        unfold guessStep at h'
        split_ifs at h' with h1 h2 h3 h4 h5 <;> simp only [Except.ok.injEq] at h' <;> subst h' <;> simp_all
      rw [← hv.1, ← hv.2.1, ← hv.2.2.1, ← hv.2.2.2.1, ← hv.2.2.2.2]
      exact this

/-- **C149, outcome.**  ValueError exactly for an unknown key in `init_guess`; otherwise RuntimeError exactly when the solver reports
failure; otherwise the solver's vector, in order, with the given coefficients and reference conditions. -/
theorem outcome (root : (Unknowns → List Fl) → Unknowns → Bool × Unknowns) (v_mp i_mp v_oc i_sc α β Ns Eg d t g : Fl) (guess : PyDict Fl) :
    (fitDesoto root v_mp i_mp v_oc i_sc α β Ns Eg d t g guess = .error .valueError ↔ ¬ ∀ k ∈ guess.map Prod.fst, k ∈ guessKeys) ∧
    ((∀ k ∈ guess.map Prod.fst, k ∈ guessKeys) → ∃ x0, applyGuess (desotoStart v_mp i_mp v_oc i_sc Ns t) guess = .ok x0 ∧
      ∀ b x, root (desotoSystem ⟨i_sc, v_oc, i_mp, v_mp, β, α, Eg, d, t + fin 273.15, fin kEV⟩) x0 = (b, x) →
        fitDesoto root v_mp i_mp v_oc i_sc α β Ns Eg d t g guess =
          if b then .ok ⟨x.IL, x.Io, x.Rs, x.Rsh, x.a, α, Eg, d, g, t⟩ else .error .runtimeError) := by
  unfold fitDesoto
  rw [← guess_ok guess (desotoStart v_mp i_mp v_oc i_sc Ns t)]
  cases h : applyGuess (desotoStart v_mp i_mp v_oc i_sc Ns t) guess with
  | error e => simp [guess_err _ _ _ h]
  | ok x0 =>
    refine ⟨?_, fun _ => ⟨x0, rfl, fun b x hx => ?_⟩⟩
    · simp only
      constructor
      · intro h'
        split at h' <;> simp at h'
      · intro h'
        exact absurd ⟨x0, rfl⟩ h'
    · simp only [hx]

/-- **C149, default starting point.**  `a_0` is 1.5 thermal voltages per cell, `Io_0` puts open circuit on the ideal diode's curve and
`Rs_0` the maximum power point. -/
theorem start_values (vmp imp voc isc Ns t : ℝ) (himp : imp ≠ 0) (hisc : 0 < isc) (hlt : imp < isc) (hN : 0 < Ns) (hT : 0 < t + 273.15) :
    ∃ io rs a : ℝ, desotoStart (fin vmp) (fin imp) (fin voc) (fin isc) (fin Ns) (fin t) = ⟨fin isc, fin io, fin rs, fin 100, fin a⟩ ∧
      a = 1.5 * kEV * (t + 273.15) * Ns ∧ io * Real.exp (voc / a) = isc ∧
      imp = isc - io * (Real.exp ((vmp + imp * rs) / a) - 1) := by
  have hk : 0 < kEV := by unfold kEV; norm_num
  set a := 1.5 * kEV * (t + 273.15) * Ns with ha
  have ha0 : 0 < a := by positivity
  set io := isc * Real.exp (-voc / a) with hio
  have hio0 : 0 < io := by positivity
  have h1 : 0 < 1 + (isc - imp) / io := by
    have : 0 < (isc - imp) / io := div_pos (by linarith) hio0
    linarith
  refine ⟨io, (a * Real.log (1 + (isc - imp) / io) - vmp) / imp, a, ?_, rfl, ?_, ?_⟩
  · have e100 : (100 : Fl) = fin 100 := ofNat_eq
    unfold desotoStart log1p
    dsimp only
    simp only [fin_add, fin_mul, ← ha, neg_fin]
    rw [fin_div ha0.ne', exp_fin, fin_mul, ← hio, fin_sub, fin_div hio0.ne', one_eq, fin_add, log_fin h1, fin_mul, fin_sub,
      fin_div himp, e100]
  · rw [hio, mul_assoc, ← Real.exp_add, show -voc / a + voc / a = 0 by ring, Real.exp_zero, mul_one]
  · rw [show vmp + imp * ((a * Real.log (1 + (isc - imp) / io) - vmp) / imp) = a * Real.log (1 + (isc - imp) / io) by field_simp; ring,
      mul_div_cancel_left₀ _ ha0.ne', Real.exp_log h1]
    field_simp
    ring

example := start_values 31 8.5 38 9 60 25 (by norm_num) (by norm_num) (by norm_num) (by norm_num) (by norm_num)

/-! ### C150 -/

/-- `δ` of Batzelis' method, from the relative temperature coefficients. -/
def delta (voc isc α β : ℝ) : ℝ := (1 - β / voc * 298.15) / (50.1 - α / isc * 298.15)

/-- The relations between data and parameters, for the value `w` used for the Lambert W function at `exp(1/δ + 1)`. -/
structure Meets (vmp imp voc isc w δ a IL Io Rsh Rs : ℝ) : Prop where
  slope : a = δ * voc
  mp : vmp + imp * Rs = a * (w - 1)
  rsh : Rsh * (isc * (1 - 1 / w) - imp) = a * (w - 1)
  rsh0 : Rsh ≠ 0
  il : IL = (1 + Rs / Rsh) * isc
  io : IL = Io * Real.exp (voc / a)

private theorem values {vmp imp voc isc α β w : ℝ} (hi : imp ≠ 0) (hv : voc ≠ 0) (hs : isc ≠ 0) (hδ : delta voc isc α β ≠ 0)
    (hw : lambertwPvlib (fin (Real.exp (1 / delta voc isc α β + 1))) = fin w) (hw1 : 1 < w) (hd : isc * (1 - 1 / w) ≠ imp) :
    ∃ a IL Io Rsh Rs : ℝ, fitDesotoBatzelis (fin vmp) (fin imp) (fin voc) (fin isc) (fin α) (fin β) =
      ⟨fin α, fin a, fin IL, fin Io, fin Rsh, fin Rs⟩ ∧ Meets vmp imp voc isc w (delta voc isc α β) a IL Io Rsh Rs := by
  set δ := delta voc isc α β with hδe
  have hden : (50.1 - α / isc * 298.15 : ℝ) ≠ 0 := by
    intro h
    rw [hδe, delta, h, div_zero] at hδ
    exact hδ rfl
  have hwn : w ≠ 0 := by linarith
  have hd' : isc * (1 - 1 / w) - imp ≠ 0 := sub_ne_zero.mpr hd
  have hR : δ * voc * (w - 1) / (isc * (1 - 1 / w) - imp) ≠ 0 :=
    div_ne_zero (mul_ne_zero (mul_ne_zero hδ hv) (by linarith)) hd'
  refine ⟨δ * voc, (1 + (δ * voc * (w - 1) - vmp) / imp / (δ * voc * (w - 1) / (isc * (1 - 1 / w) - imp))) * isc,
    (1 + (δ * voc * (w - 1) - vmp) / imp / (δ * voc * (w - 1) / (isc * (1 - 1 / w) - imp))) * isc * Real.exp (-1 / δ),
    δ * voc * (w - 1) / (isc * (1 - 1 / w) - imp), (δ * voc * (w - 1) - vmp) / imp, ?_, ⟨rfl, ?_, ?_, hR, rfl, ?_⟩⟩
  · unfold fitDesotoBatzelis
    dsimp only
    rw [one_eq, fin_div hs, fin_div hv]
    simp only [fin_mul, fin_sub, neg_fin]
    rw [fin_div hden]
    have : (1 - β / voc * 298.15) / (50.1 - α / isc * 298.15) = δ := by rw [hδe, delta]
    rw [this, fin_div hδ, fin_add, exp_fin, hw]
    simp only [fin_mul, fin_sub]
    rw [fin_div hi, fin_div hwn]
    simp only [fin_mul, fin_sub]
    rw [fin_div hd', fin_div hR, fin_add, fin_mul, fin_div hδ, exp_fin, fin_mul, div_mul_cancel₀ _ hs]
  · field_simp; ring
  · exact div_mul_cancel₀ _ hd'
  · generalize (1 + (δ * voc * (w - 1) - vmp) / imp / (δ * voc * (w - 1) / (isc * (1 - 1 / w) - imp))) * isc = x
    rw [mul_assoc, ← Real.exp_add, show -1 / δ + voc / (δ * voc) = 0 by field_simp; ring, Real.exp_zero, mul_one]

/-- **C150, relations.**  For a module with `0 < δ ≤ 1` (real modules: about 0.04) let `W` be the exact Lambert W value, `W e^W =
e^(1/δ + 1)`.  The computed one, `w`, is within 2e-11 of it, and the returned parameters obey the method's equations with `w`. -/
theorem batzelis {vmp imp voc isc α β W : ℝ} (hi : imp ≠ 0) (hv : 0 < voc) (hs : 0 < isc) (hδ : 0 < delta voc isc α β)
    (hδ1 : delta voc isc α β ≤ 1) (hW : 0 ≤ W) (hWe : W * Real.exp W = Real.exp (1 / delta voc isc α β + 1)) :
    ∃ w : ℝ, 1 < w ∧ w ≤ W ∧ W - w ≤ 2e-11 * W ∧ (isc * (1 - 1 / w) ≠ imp →
      ∃ a IL Io Rsh Rs : ℝ, fitDesotoBatzelis (fin vmp) (fin imp) (fin voc) (fin isc) (fin α) (fin β) =
        ⟨fin α, fin a, fin IL, fin Io, fin Rsh, fin Rs⟩ ∧ Meets vmp imp voc isc w (delta voc isc α β) a IL Io Rsh Rs) := by
  obtain ⟨w, h1, h2, h3, h4⟩ := LambertW.lambertwPvlib_accuracy hW hWe
  have hinv : 1 ≤ 1 / delta voc isc α β := by rw [le_div_iff₀ hδ]; linarith
  have hW1 : 1.5 < W := by
    by_contra hc
    push Not at hc
    have e1 : Real.exp W ≤ Real.exp 1.5 := Real.exp_le_exp.mpr hc
    have e2 : Real.exp 2 ≤ Real.exp (1 / delta voc isc α β + 1) := Real.exp_le_exp.mpr (by linarith)
    rw [← hWe] at e2
    have e3 : W * Real.exp W ≤ 1.5 * Real.exp 1.5 := mul_le_mul hc e1 (Real.exp_pos _).le (by norm_num)
    have e4 : Real.exp 2 = Real.exp 1.5 * Real.exp 0.5 := by rw [← Real.exp_add]; norm_num
    have e5 : (1.5 : ℝ) < Real.exp 0.5 := by
      have := Real.add_one_lt_exp (x := (0.5 : ℝ)) (by norm_num)
      norm_num at this ⊢
      exact this
    have := Real.exp_pos (1.5 : ℝ)
    nlinarith
  have hw1 : 1 < w := by
    have : (2e-11 : ℝ) * W ≤ 0.1 * W := by
      apply mul_le_mul_of_nonneg_right _ hW
      norm_num
    norm_num at this hW1 ⊢
    linarith
  exact ⟨w, hw1, h3, h4, fun hd => values hi hv.ne' hs.ne' hδ.ne' h1 hw1 hd⟩

/-- The value of the single diode current at `v`, `i` minus `i`: 0 exactly on the curve. -/
def miss (IL I0 Rs Rsh a v i : ℝ) : ℝ := IL - I0 * (Real.exp ((v + i * Rs) / a) - 1) - (v + i * Rs) / Rsh - i

/-- **C150, the datasheet points.**  The returned curve misses short circuit by the diode current there, open circuit by the shunt
current minus the saturation current, and the maximum power point by `isc (Rs/Rsh) (1 - 1/w) + Io`, the last up to 4e-11 of the
light current. -/
theorem batzelis_points {vmp imp voc isc δ w W a IL Io Rsh Rs : ℝ} (h : Meets vmp imp voc isc w δ a IL Io Rsh Rs) (hδ : δ ≠ 0)
    (hv : voc ≠ 0) (hw : 1 < w) (hwW : w ≤ W) (hacc : W - w ≤ 2e-11 * W) (hWe : W * Real.exp W = Real.exp (1 / δ + 1)) :
    miss IL Io Rs Rsh a 0 isc = -(Io * (Real.exp (isc * Rs / a) - 1)) ∧
    miss IL Io Rs Rsh a voc 0 = Io - voc / Rsh ∧
    |miss IL Io Rs Rsh a vmp imp - (isc * (Rs / Rsh) * (1 - 1 / w) + Io)| ≤ 4e-11 * |IL| := by
  have hR := h.rsh0
  have ha : a ≠ 0 := by rw [h.slope]; exact mul_ne_zero hδ hv
  refine ⟨?_, ?_, ?_⟩
  · unfold miss
    rw [h.il, zero_add]
    field_simp
    ring
  · unfold miss
    have := h.io
    rw [zero_mul, add_zero]
    linarith
  · have hWp : 0 < W := by linarith
    have hwp : 0 < w := by linarith
    have e1 : Io * Real.exp (w - 1) = IL * (Real.exp (w - W) / W) := by
      have h1 : voc / a = 1 / δ := by rw [h.slope]; field_simp
      rw [h.io, h1, mul_assoc]
      congr 1
      rw [eq_comm, mul_div_assoc', div_eq_iff hWp.ne']
      have h2 : Real.exp (w - W) * (W * Real.exp W) = W * Real.exp w := by
        rw [show W * Real.exp W = Real.exp W * W by ring, ← mul_assoc, ← Real.exp_add, show w - W + W = w by ring]; ring
      have h3 : Real.exp (1 / δ + 1) = Real.exp (1 / δ) * Real.exp 1 := Real.exp_add _ _
      rw [hWe, h3] at h2
      have h4 : Real.exp w = Real.exp (w - 1) * Real.exp 1 := by rw [← Real.exp_add]; congr 1; ring
      rw [h4] at h2
      have := Real.exp_pos (1 : ℝ)
      apply mul_right_cancel₀ this.ne'
      linarith
    have hm : miss IL Io Rs Rsh a vmp imp - (isc * (Rs / Rsh) * (1 - 1 / w) + Io) = IL * (1 / w - Real.exp (w - W) / W) := by
      unfold miss
      have h5 : (vmp + imp * Rs) / Rsh = isc * (1 - 1 / w) - imp := by
        rw [h.mp, ← h.rsh]; field_simp
      rw [h5, h.mp, mul_div_cancel_left₀ _ ha, mul_sub, e1]
      rw [h.il]
      ring
    rw [hm, abs_mul, mul_comm]
    apply mul_le_mul_of_nonneg_right _ (abs_nonneg _)
    have hx1 : Real.exp (w - W) ≤ 1 := by rw [Real.exp_le_one_iff]; linarith
    have hx2 : 1 - (W - w) ≤ Real.exp (w - W) := by have := Real.add_one_le_exp (w - W); linarith
    have hx3 : 1 / W ≤ 1 / w := one_div_le_one_div_of_le hwp hwW
    have hx4 : Real.exp (w - W) / W ≤ 1 / W := div_le_div_of_nonneg_right hx1 hWp.le
    rw [abs_of_nonneg (by linarith)]
    have hx5 : (1 - (W - w)) / W ≤ Real.exp (w - W) / W := div_le_div_of_nonneg_right hx2 hWp.le
    have hx6 : 1 / w - (1 - (W - w)) / W = (W - w) / W * (1 / w + 1) := by field_simp; ring
    have hx7 : (W - w) / W ≤ 2e-11 := by rw [div_le_iff₀ hWp]; exact hacc
    have hx8 : 1 / w ≤ 1 := by rw [div_le_one hwp]; linarith
    have hx9 : (W - w) / W * (1 / w + 1) ≤ 2e-11 * 2 :=
      mul_le_mul hx7 (by linarith) (by have : 0 < 1 / w := by positivity
                                       linarith) (by norm_num)
    have hx10 : (2e-11 : ℝ) * 2 = 4e-11 := by norm_num
    linarith

/-- A 60-cell module. -/
example : ∃ a IL Io Rsh Rs : ℝ, fitDesotoBatzelis (fin 31) (fin 8) (fin 38) (fin 9) (fin 0.005) (fin (-0.12)) =
    ⟨fin 0.005, fin a, fin IL, fin Io, fin Rsh, fin Rs⟩ ∧ miss IL Io Rs Rsh a 38 0 = Io - 38 / Rsh := by
  have hd : 0 < delta 38 9 0.005 (-0.12) ∧ delta 38 9 0.005 (-0.12) ≤ 1 / 20 := by unfold delta; norm_num
  obtain ⟨Wf, hWf⟩ := LambertW.exists_isLambertW
  obtain ⟨W, hW, -, hWe⟩ := hWf (Real.exp (1 / delta 38 9 0.005 (-0.12) + 1)) (Real.exp_pos _).le
  have hbig : 10 < W := by
    by_contra h
    push Not at h
    have h1 : W * Real.exp W ≤ 10 * Real.exp 10 := mul_le_mul h (Real.exp_le_exp.mpr h) (Real.exp_pos _).le (by norm_num)
    have h2 : (20:ℝ) ≤ 1 / delta 38 9 0.005 (-0.12) := by
      rw [le_div_iff₀ hd.1]; linarith [hd.2]
    have h3 : Real.exp 21 ≤ Real.exp (1 / delta 38 9 0.005 (-0.12) + 1) := Real.exp_le_exp.mpr (by linarith)
    have h4 : Real.exp 21 = Real.exp 10 * Real.exp 11 := by rw [← Real.exp_add]; norm_num
    have h5 : (12:ℝ) ≤ Real.exp 11 := by have := Real.add_one_le_exp (11:ℝ); linarith
    rw [hWe] at h1
    nlinarith [Real.exp_pos 10]
  obtain ⟨w, w1, w2, w3, g⟩ := batzelis (vmp := 31) (imp := 8) (voc := 38) (isc := 9) (α := 0.005) (β := -0.12) (by norm_num) (by norm_num)
    (by norm_num) hd.1 (by linarith [hd.2]) hW hWe
  have hw : 9 < w := by nlinarith
  obtain ⟨a, IL, Io, Rsh, Rs, e, M⟩ := g (by
    intro h
    have : 9 * (1 - 1 / w) > 8 := by
      have : 1 / w < 1 / 9 := one_div_lt_one_div_of_lt (by norm_num) hw
      linarith
    linarith)
  exact ⟨a, IL, Io, Rsh, Rs, e, (batzelis_points M hd.1.ne' (by norm_num) w1 w2 w3 hWe).2.1⟩

/-- **C150, scaling.**  `c` modules in parallel strings of `d`: currents scale by `c`, voltages by `d`, resistances by `d / c`. -/
theorem batzelis_scaling {vmp imp voc isc α β w c d a IL Io Rsh Rs : ℝ} (hc : c ≠ 0) (hd0 : d ≠ 0) (hi : imp ≠ 0) (hv : voc ≠ 0)
    (hs : isc ≠ 0) (hδ : delta voc isc α β ≠ 0)
    (hw : lambertwPvlib (fin (Real.exp (1 / delta voc isc α β + 1))) = fin w) (hw1 : 1 < w) (hd : isc * (1 - 1 / w) ≠ imp)
    (h : fitDesotoBatzelis (fin vmp) (fin imp) (fin voc) (fin isc) (fin α) (fin β) = ⟨fin α, fin a, fin IL, fin Io, fin Rsh, fin Rs⟩) :
    fitDesotoBatzelis (fin (d * vmp)) (fin (c * imp)) (fin (d * voc)) (fin (c * isc)) (fin (c * α)) (fin (d * β)) =
      ⟨fin (c * α), fin (d * a), fin (c * IL), fin (c * Io), fin (d / c * Rsh), fin (d / c * Rs)⟩ := by
  have hδ' : delta (d * voc) (c * isc) (c * α) (d * β) = delta voc isc α β := by
    unfold delta; rw [mul_div_mul_left _ _ hd0, mul_div_mul_left _ _ hc]
  obtain ⟨a1, IL1, Io1, Rsh1, Rs1, e1, m1⟩ := values (vmp := vmp) hi hv hs hδ hw hw1 hd
  rw [h] at e1
  simp only [Batzelis.mk.injEq, fin_inj, true_and] at e1
  obtain ⟨rfl, rfl, rfl, rfl, rfl⟩ := e1
  obtain ⟨a2, IL2, Io2, Rsh2, Rs2, e2, m2⟩ := values (vmp := d * vmp) (imp := c * imp) (voc := d * voc) (isc := c * isc) (α := c * α)
    (β := d * β) (w := w) (mul_ne_zero hc hi) (mul_ne_zero hd0 hv) (mul_ne_zero hc hs) (by rw [hδ']; exact hδ) (by rw [hδ']; exact hw) hw1
    (by rw [mul_assoc]; exact fun he => hd (mul_left_cancel₀ hc he))
  rw [hδ'] at m2
  rw [e2]
  have ha2 : a2 = d * a := by rw [m2.slope, m1.slope]; ring
  have hRs : Rs2 = d / c * Rs := by
    have h1 := m2.mp
    have h2 := m1.mp
    rw [ha2] at h1
    have : c * imp * Rs2 = d * imp * Rs := by linear_combination h1 - d * h2
    field_simp
    have := mul_left_cancel₀ hi (show imp * (c * Rs2) = imp * (d * Rs) by linarith)
    linarith
  have hRsh : Rsh2 = d / c * Rsh := by
    have h1 := m2.rsh
    have h2 := m1.rsh
    rw [ha2] at h1
    have h3 : (isc * (1 - 1 / w) - imp) * (c * Rsh2) = (isc * (1 - 1 / w) - imp) * (d * Rsh) := by
      linear_combination h1 - d * h2
    have := mul_left_cancel₀ (sub_ne_zero.mpr hd) h3
    field_simp
    linarith
  have hIL : IL2 = c * IL := by
    rw [m2.il, m1.il, hRs, hRsh, mul_div_mul_left _ _ (div_ne_zero hd0 hc)]; ring
  have hIo : Io2 = c * Io := by
    have h1 := m2.io
    have h2 := m1.io
    rw [hIL, ha2, mul_div_mul_left _ _ hd0, h2, ← mul_assoc] at h1
    exact (mul_right_cancel₀ (Real.exp_ne_zero _) h1).symm
  rw [ha2, hRs, hRsh, hIL, hIo]

/-- A 60-cell module: `δ` is in range. -/
example : 0 < delta 38 9 0.005 (-0.12) ∧ delta 38 9 0.005 (-0.12) ≤ 1 := by
  unfold delta; norm_num

end Pvlib.Props.SdmDesoto
end
