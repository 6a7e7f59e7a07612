import Verif.Props.PvDiode

/-! # Property C224: a hotter module gives less voltage and less power (De Soto, CEC and PVsyst models) -/

noncomputable section
open scoped Classical
namespace Pvlib.Props.Warm
open Fl Pvlib.SingleDiode Pvlib.PvFunctions Pvlib.Props.LambertW Pvlib.Props.SingleDiode Pvlib.Props.CalcParams Pvlib.Props.PvDiode

/-! ### Specification -/

/-- What matters about a module in given light when its temperature changes: light current at zero degrees Celsius and its change per degree, the band gap (extrapolated to
absolute zero) as a temperature, thermal voltage of the string of cells per kelvin, series resistance and shunt conductance. -/
structure Cells where
  (light slope barrier thermal Rs shunt : ℝ)

/-- The voltage across the junctions at current `i` and terminal voltage `v`, in units of the thermal voltage per kelvin. -/
def Cells.junction (c : Cells) (i v : ℝ) : ℝ := (v + i * c.Rs) / c.thermal

/-- The light current that is lost in the diodes at an operating point: neither delivered nor shunted. -/
def Cells.lost (c : Cells) (T i v : ℝ) : ℝ := c.light + c.slope * T - i - (v + i * c.Rs) * c.shunt

/-- At operating point `(i, v)` of a module at temperature `T`, the gain of light current since the lower temperature `T'` is outweighed by the diodes: the junctions are below the
band gap and the diode current is large enough.  (With a light current that does not grow with temperature the second condition is void: `outweighs_of_slope`.) -/
structure Outweighs (c : Cells) (T' T i v : ℝ) : Prop where
  gap : c.junction i v ≤ c.barrier
  gain : c.slope * (kelvin T' * kelvin T + (c.barrier - c.junction i v) * (T - T')) ≤ c.lost T i v * (c.barrier - c.junction i v)

/-- The constants of a De Soto module in light `G` (Boltzmann's constant is 8.617333262e-05 eV/K). -/
def ofDesoto (m : Module) (G : ℝ) : Cells :=
  ⟨G / m.G0 * (m.IL - m.alpha * m.T0), G / m.G0 * m.alpha, m.Eg * (1 - m.dEg * kelvin m.T0) / 8.617333262e-05, m.aref / kelvin m.T0, m.Rs, G / (m.Rsh * m.G0)⟩

/-- Those of a CEC module. -/
def ofCec (m : Module) (adjust G : ℝ) : Cells := ofDesoto { m with alpha := m.alpha - m.alpha * adjust / 100 } G

/-- Those of a PVsyst module. -/
def ofPvsyst (p : PModule) (G : ℝ) : Cells :=
  ⟨G / p.G0 * (p.IL - p.alpha * p.T0), G / p.G0 * p.alpha, qk * p.Eg / p.gamma, p.gamma * p.Ns / qk, p.Rs, 1 / p.shunt G⟩

/-! ### The diode current grows with temperature -/

/-- A diode current, at a fixed voltage: `K³ exp(-b/K) (exp(u/K) - 1)` up to a factor. -/
theorem diode_current_grows {A b u K' K : ℝ} (hA : 0 < A) (hK' : 0 < K') (hK : K' ≤ K) (hu : 0 ≤ u) (hub : u ≤ b) :
    A * K' ^ 3 * Real.exp (-b / K') * (Real.exp (u / K') - 1) * (1 + (b - u) * (1 / K' - 1 / K)) ≤
      A * K ^ 3 * Real.exp (-b / K) * (Real.exp (u / K) - 1) := by
  have hK0 : 0 < K := hK'.trans_le hK
  have form : ∀ k : ℝ, A * k ^ 3 * Real.exp (-b / k) * (Real.exp (u / k) - 1) = A * k ^ 2 * Real.exp (-(b - u) / k) * (k * (1 - Real.exp (-(u / k)))) := by
    intro k
    have e1 : Real.exp (-(b - u) / k) = Real.exp (-b / k) * Real.exp (u / k) := by rw [← Real.exp_add]; congr 1; ring
    have e2 : Real.exp (u / k) * Real.exp (-(u / k)) = 1 := by rw [← Real.exp_add]; simp
    rw [e1]
    linear_combination (A * k ^ 3 * Real.exp (-b / k)) * e2
  rw [form, form]
  -- the chord below a concave function
  have c1 : K' * (1 - Real.exp (-(u / K'))) ≤ K * (1 - Real.exp (-(u / K))) := by
    have hr0 : 0 ≤ K' / K := by positivity
    have hr1 : K' / K ≤ 1 := (div_le_one hK0).2 hK
    have := convexOn_exp.2 (Set.mem_univ (-(u / K'))) (Set.mem_univ 0) hr0 (sub_nonneg.2 hr1) (by ring)
    simp only [smul_eq_mul, mul_zero, add_zero, Real.exp_zero, mul_one] at this
    have e : K' / K * -(u / K') = -(u / K) := by field_simp
    rw [e] at this
    have := mul_le_mul_of_nonneg_left this hK0.le
    have e' : K * (K' / K * Real.exp (-(u / K')) + (1 - K' / K)) = K' * Real.exp (-(u / K')) + K - K' := by field_simp; ring
    rw [e'] at this
    linarith
  have c0 : 0 ≤ K' * (1 - Real.exp (-(u / K'))) := mul_nonneg hK'.le (sub_nonneg.2 (Real.exp_le_one_iff.2 (neg_nonpos.2 (by positivity))))
  have c2 : Real.exp (-(b - u) / K') * (1 + (b - u) * (1 / K' - 1 / K)) ≤ Real.exp (-(b - u) / K) := by
    have e : Real.exp (-(b - u) / K) = Real.exp (-(b - u) / K') * Real.exp ((b - u) * (1 / K' - 1 / K)) := by rw [← Real.exp_add]; congr 1; ring
    rw [e]
    refine mul_le_mul_of_nonneg_left ?_ (Real.exp_pos _).le
    have := Real.add_one_le_exp ((b - u) * (1 / K' - 1 / K))
    linarith
  have c3 : A * K' ^ 2 ≤ A * K ^ 2 := mul_le_mul_of_nonneg_left (pow_le_pow_left₀ hK'.le hK 2) hA.le
  have hs : 0 ≤ (b - u) * (1 / K' - 1 / K) := mul_nonneg (by linarith) (sub_nonneg.2 (one_div_le_one_div_of_le hK' hK))
  calc A * K' ^ 2 * Real.exp (-(b - u) / K') * (K' * (1 - Real.exp (-(u / K')))) * (1 + (b - u) * (1 / K' - 1 / K))
      = A * K' ^ 2 * (Real.exp (-(b - u) / K') * (1 + (b - u) * (1 / K' - 1 / K))) * (K' * (1 - Real.exp (-(u / K')))) := by ring
    _ ≤ A * K ^ 2 * Real.exp (-(b - u) / K) * (K * (1 - Real.exp (-(u / K)))) := by
        refine mul_le_mul (mul_le_mul c3 c2 ?_ (by positivity)) c1 c0 (by positivity)
        exact mul_nonneg (Real.exp_pos _).le (by linarith)

example := diode_current_grows (A := 1) (b := 14000) (u := 6000) (K' := 280) (K := 320) (by norm_num) (by norm_num) (by norm_num) (by norm_num) (by norm_num)

/-- **C224**: at any current, the voltage of the hotter module is not higher (the diode equation with a saturation current `A K³ exp(-b/K)`). -/
theorem voltage_falls {c : Cells} {A T' T i v' v : ℝ} (hA : 0 < A) (ht : 0 < c.thermal) (hg : 0 ≤ c.shunt) (hT' : 0 < kelvin T') (hT : T' ≤ T) (hx : 0 ≤ v + i * c.Rs)
    (h' : Diode (c.light + c.slope * T') (A * kelvin T' ^ 3 * Real.exp (-c.barrier / kelvin T')) c.Rs c.shunt (c.thermal * kelvin T') i v')
    (h : Diode (c.light + c.slope * T) (A * kelvin T ^ 3 * Real.exp (-c.barrier / kelvin T)) c.Rs c.shunt (c.thermal * kelvin T) i v)
    (ho : Outweighs c T' T i v) : v ≤ v' := by
  have hKK : kelvin T' ≤ kelvin T := by unfold kelvin; linarith
  have hK : 0 < kelvin T := hT'.trans_le hKK
  have hd : T - T' = kelvin T - kelvin T' := by unfold kelvin; ring
  set u := c.junction i v with hu
  have hu0 : 0 ≤ u := div_nonneg hx ht.le
  have harg : ∀ k : ℝ, (v + i * c.Rs) / (c.thermal * k) = u / k := fun k => by rw [hu, Cells.junction, div_div]
  have grow := diode_current_grows hA hT' hKK hu0 ho.gap
  have eD : A * kelvin T ^ 3 * Real.exp (-c.barrier / kelvin T) * (Real.exp (u / kelvin T) - 1) = c.lost T i v := by
    unfold Diode at h
    rw [harg] at h
    unfold Cells.lost
    linarith
  rw [eD] at grow
  set D' := A * kelvin T' ^ 3 * Real.exp (-c.barrier / kelvin T') * (Real.exp (u / kelvin T') - 1) with hD'
  have hD'0 : 0 ≤ D' := mul_nonneg (by positivity) (sub_nonneg.2 (Real.one_le_exp (by positivity)))
  set K' := kelvin T'
  set K := kelvin T
  set w := c.barrier - u with hw
  have hw0 : 0 ≤ w := sub_nonneg.2 ho.gap
  have gain := ho.gain
  rw [← hu, ← hw, hd] at gain
  -- what the diodes gain is at least what the light current gains
  have key : D' + c.slope * (K - K') ≤ c.lost T i v := by
    have e1 : D' * (1 + w * (1 / K' - 1 / K)) = D' + D' * w * (K - K') / (K' * K) := by field_simp
    rw [e1] at grow
    have hP : 0 < K' * K := mul_pos hT' hK
    have g2 : D' * (K' * K + w * (K - K')) ≤ c.lost T i v * (K' * K) := by
      have := mul_le_mul_of_nonneg_right grow hP.le
      have e : (D' + D' * w * (K - K') / (K' * K)) * (K' * K) = D' * (K' * K + w * (K - K')) := by field_simp
      linarith
    have hQ : 0 < K' * K + w * (K - K') := by
      have := mul_nonneg hw0 (sub_nonneg.2 hKK); linarith
    have g3 := mul_le_mul_of_nonneg_right gain (sub_nonneg.2 hKK)
    refine le_of_mul_le_mul_right (a := K' * K + w * (K - K')) ?_ hQ
    nlinarith
  by_contra hlt
  push Not at hlt
  unfold Diode at h'
  have m1 : (v' + i * c.Rs) / (c.thermal * K') ≤ u / K' := by
    rw [← harg]
    exact div_le_div_of_nonneg_right (by linarith) (by positivity)
  have m2 := Real.exp_lt_exp.2 (lt_of_le_of_ne m1 (by
    rw [← harg]
    intro e
    rw [div_left_inj' (by positivity : c.thermal * K' ≠ 0)] at e
    linarith))
  have hS : 0 < A * K' ^ 3 * Real.exp (-c.barrier / K') := by positivity
  have m3 := mul_lt_mul_of_pos_left m2 hS
  have m4 := mul_le_mul_of_nonneg_right (by linarith : v' + i * c.Rs ≤ v + i * c.Rs) hg
  unfold Cells.lost at key
  have hKT : K - K' = T - T' := hd.symm
  rw [hKT] at key
  nlinarith

/-- **C224**: if the light current does not grow with temperature it is enough that the light current is below the diode current at the band gap. -/
theorem outweighs_of_slope {c : Cells} {A T' T i v : ℝ} (hA : 0 < A) (ht : 0 < c.thermal) (hg : 0 ≤ c.shunt) (hT' : 0 < kelvin T') (hT : T' ≤ T) (hi : 0 ≤ i) (hx : 0 ≤ v + i * c.Rs)
    (hs : c.slope ≤ 0) (hI : c.light + c.slope * T ≤ A * kelvin T ^ 3 * Real.exp (-c.barrier / kelvin T) * (Real.exp (c.barrier / kelvin T) - 1))
    (h : Diode (c.light + c.slope * T) (A * kelvin T ^ 3 * Real.exp (-c.barrier / kelvin T)) c.Rs c.shunt (c.thermal * kelvin T) i v) : Outweighs c T' T i v := by
  have hK : 0 < kelvin T := hT'.trans_le (by unfold kelvin; linarith)
  have hgx : 0 ≤ (v + i * c.Rs) * c.shunt := mul_nonneg hx hg
  have hS : 0 < A * kelvin T ^ 3 * Real.exp (-c.barrier / kelvin T) := by positivity
  have harg : (v + i * c.Rs) / (c.thermal * kelvin T) = c.junction i v / kelvin T := by rw [Cells.junction, div_div]
  unfold Diode at h
  rw [harg] at h
  have gap : c.junction i v ≤ c.barrier := by
    have h1 : A * kelvin T ^ 3 * Real.exp (-c.barrier / kelvin T) * (Real.exp (c.junction i v / kelvin T) - 1) ≤
        A * kelvin T ^ 3 * Real.exp (-c.barrier / kelvin T) * (Real.exp (c.barrier / kelvin T) - 1) := by linarith
    have h2 := le_of_mul_le_mul_left h1 hS
    have h3 := Real.exp_le_exp.1 (by linarith : Real.exp (c.junction i v / kelvin T) ≤ Real.exp (c.barrier / kelvin T))
    exact (div_le_div_iff_of_pos_right hK).1 h3
  refine ⟨gap, ?_⟩
  have l0 : 0 ≤ c.lost T i v := by
    have : c.lost T i v = A * kelvin T ^ 3 * Real.exp (-c.barrier / kelvin T) * (Real.exp (c.junction i v / kelvin T) - 1) := by unfold Cells.lost; linarith
    rw [this]
    exact mul_nonneg hS.le (sub_nonneg.2 (Real.one_le_exp (div_nonneg (div_nonneg hx ht.le) hK.le)))
  have w0 : 0 ≤ c.barrier - c.junction i v := sub_nonneg.2 gap
  refine le_trans (mul_nonpos_of_nonpos_of_nonneg hs ?_) (mul_nonneg l0 w0)
  have : 0 ≤ kelvin T' * kelvin T := (mul_pos hT' hK).le
  have := mul_nonneg w0 (sub_nonneg.2 hT)
  linarith

/-! ### The three module models -/

/-- The parameters of a module at temperature `T`, in given light. -/
structure Has (c : Cells) (A : ℝ) (f : ℝ → Five) : Prop where
  amp : 0 < A
  thermal : 0 < c.thermal
  Rs : 0 ≤ c.Rs
  shunt : 0 < c.shunt
  value : ∀ T, 0 < kelvin T → ∃ R, f T = ⟨fin (c.light + c.slope * T), fin (A * kelvin T ^ 3 * Real.exp (-c.barrier / kelvin T)), fin c.Rs, R, fin (c.thermal * kelvin T)⟩ ∧
    Conductance R c.shunt

/-- `calcparams_desoto` in light. -/
theorem desoto_has {m : Module} (h : m.Ok) {G : ℝ} (hG : 0 < G) :
    Has (ofDesoto m G) (m.I0 / kelvin m.T0 ^ 3 * Real.exp ((m.Eg / kelvin m.T0 - m.Eg * m.dEg) / 8.617333262e-05)) (desoto m G) := by
  have h1 := h.I0
  have h2 := h.T0
  have h3 := h.aref
  have h4 := h.Rsh
  have h5 := h.G0
  refine ⟨by positivity, ?_, h.Rs, ?_, fun T hT => ?_⟩
  · show 0 < m.aref / kelvin m.T0
    positivity
  · show 0 < G / (m.Rsh * m.G0)
    positivity
  obtain ⟨R, hd, hR, -⟩ := desoto_value h G T hT
  refine ⟨R, ?_, Or.inl ⟨_, hR hG.ne', (by positivity), ?_⟩⟩
  · rw [hd]
    unfold ofDesoto
    congr 1
    · congr 1; ring
    · congr 1
      unfold Module.sat Module.gap
      have e : T - m.T0 = kelvin T - kelvin m.T0 := by unfold kelvin; ring
      rw [e, div_pow]
      have : m.I0 / kelvin m.T0 ^ 3 * Real.exp ((m.Eg / kelvin m.T0 - m.Eg * m.dEg) / 8.617333262e-05) * kelvin T ^ 3 *
          Real.exp (-(m.Eg * (1 - m.dEg * kelvin m.T0) / 8.617333262e-05) / kelvin T) = m.I0 * (kelvin T ^ 3 / kelvin m.T0 ^ 3) *
            (Real.exp ((m.Eg / kelvin m.T0 - m.Eg * m.dEg) / 8.617333262e-05) * Real.exp (-(m.Eg * (1 - m.dEg * kelvin m.T0) / 8.617333262e-05) / kelvin T)) := by ring
      rw [this, ← Real.exp_add]
      congr 2
      field_simp
      ring
    · congr 1
      ring
  · show G / (m.Rsh * m.G0) = _
    field_simp

/-- `calcparams_cec` is `calcparams_desoto` with another temperature coefficient. -/
theorem cec_eq (m : Module) (adjust G T : ℝ) : cec m adjust G T = desoto { m with alpha := m.alpha - m.alpha * adjust / 100 } G T := by
  unfold cec desoto calcparamsCec
  simp only [one_eq, ofNat_eq]
  rw [fin_div (show (100 : ℝ) ≠ 0 by norm_num)]
  simp only [fin_sub, fin_mul]
  congr 2
  ring

/-- `calcparams_cec` in light. -/
theorem cec_has {m : Module} (h : m.Ok) {G : ℝ} (hG : 0 < G) (adjust : ℝ) :
    Has (ofCec m adjust G) (m.I0 / kelvin m.T0 ^ 3 * Real.exp ((m.Eg / kelvin m.T0 - m.Eg * m.dEg) / 8.617333262e-05)) (cec m adjust G) := by
  have ok : ({ m with alpha := m.alpha - m.alpha * adjust / 100 } : Module).Ok := ⟨h.aref, h.IL, h.I0, h.Rsh, h.Rs, h.Eg, h.G0, h.T0⟩
  have := desoto_has ok hG
  refine ⟨this.amp, this.thermal, this.Rs, this.shunt, fun T hT => ?_⟩
  obtain ⟨R, e, hR⟩ := this.value T hT
  exact ⟨R, (cec_eq m adjust G T).trans e, hR⟩

/-- `calcparams_pvsyst` with a constant ideality factor. -/
theorem pvsyst_has {p : PModule} (h : p.Ok) (hm : p.mu = 0) {G : ℝ} (hS : 0 < p.shunt G) :
    Has (ofPvsyst p G) (p.I0 / kelvin p.T0 ^ 3 * Real.exp (qk * p.Eg / p.gamma / kelvin p.T0)) (pvsyst p G) := by
  have h1 := h.I0
  have h2 := h.T0
  have h3 := h.gamma
  have h4 := h.Ns
  have h5 : 0 < qk := by unfold qk; norm_num
  refine ⟨by positivity, ?_, h.Rs, ?_, fun T hT => ?_⟩
  · show 0 < p.gamma * p.Ns / qk
    positivity
  · show 0 < 1 / p.shunt G
    positivity
  have hgam : p.gam T = p.gamma := by unfold PModule.gam; rw [hm]; ring
  refine ⟨fin (p.shunt G), ?_, Or.inl ⟨_, rfl, hS.ne', rfl⟩⟩
  rw [pvsyst_value h G T hT (by rw [hgam]; exact h3.ne'), hgam]
  unfold ofPvsyst
  congr 1
  · congr 1; ring
  · congr 1
    unfold PModule.sat
    rw [hgam, div_pow]
    have : p.I0 / kelvin p.T0 ^ 3 * Real.exp (qk * p.Eg / p.gamma / kelvin p.T0) * kelvin T ^ 3 * Real.exp (-(qk * p.Eg / p.gamma) / kelvin T) =
        p.I0 * (kelvin T ^ 3 / kelvin p.T0 ^ 3) * (Real.exp (qk * p.Eg / p.gamma / kelvin p.T0) * Real.exp (-(qk * p.Eg / p.gamma) / kelvin T)) := by ring
    rw [this, ← Real.exp_add]
    congr 2
    ring
  · congr 1
    ring

/-! ### What `singlediode` reports -/

variable {n : Numerics}

private theorem points (hn : Good n) {c : Cells} {A : ℝ} {f : ℝ → Five} (h : Has c A f) {T : ℝ} (hT : 0 < kelvin T) (hI : 0 < c.light + c.slope * T) :
    ∃ o voc imp vmp, singlediode n (f T) = .ok o ∧ o.v_oc = fin voc ∧ o.i_mp = fin imp ∧ o.v_mp = fin vmp ∧ o.p_mp = fin (vmp * imp) ∧ 0 < imp ∧ 0 < vmp ∧ vmp < voc ∧
      Diode (c.light + c.slope * T) (A * kelvin T ^ 3 * Real.exp (-c.barrier / kelvin T)) c.Rs c.shunt (c.thermal * kelvin T) 0 voc ∧
      Diode (c.light + c.slope * T) (A * kelvin T ^ 3 * Real.exp (-c.barrier / kelvin T)) c.Rs c.shunt (c.thermal * kelvin T) imp vmp ∧
      (∀ i v, Diode (c.light + c.slope * T) (A * kelvin T ^ 3 * Real.exp (-c.barrier / kelvin T)) c.Rs c.shunt (c.thermal * kelvin T) i v → v * i ≤ vmp * imp) ∧
      ∀ i, ∃ v, Diode (c.light + c.slope * T) (A * kelvin T ^ 3 * Real.exp (-c.barrier / kelvin T)) c.Rs c.shunt (c.thermal * kelvin T) i v := by
  have el : pyLower "lambertw" = "lambertw" := by decide +kernel
  obtain ⟨R, hd, hc⟩ := h.value T hT
  have hA := h.amp
  have ht := h.thermal
  have hs : Sane (c.light + c.slope * T) (A * kelvin T ^ 3 * Real.exp (-c.barrier / kelvin T)) c.Rs c.shunt (c.thermal * kelvin T) :=
    ⟨hI.le, by positivity, h.Rs, h.shunt.le, by positivity⟩
  obtain ⟨isc, voc, imp, vmp, ix, ixx, o, ho, e1, e2, e3, e4, e5, e6, e7, -, d2, d3, -, -, dm, p1, p2, p3, p4, -⟩ :=
    lambertw_points (ovf := n.ovf) hs hI hc hn.W hn.LW hn.fmin none
  refine ⟨⟨fin isc, fin voc, fin imp, fin vmp, fin (vmp * imp), fin ix, fin ixx⟩, voc, imp, vmp, ?_, rfl, rfl, rfl, rfl, p3.trans p4, p1, p2, d2, d3, dm, fun i => ?_⟩
  · simp only [singlediode, el, if_true, hd, ho, e1, e2, e3, e4, e5, e6, e7]
  · obtain ⟨v, -, hv⟩ := vFromI_solves (ovf := n.ovf) hs hc h.shunt hn.W hn.LW i
    exact ⟨v, hv⟩

/-- **C224**: the open-circuit voltage falls with temperature, if at open circuit the diodes outweigh the gain in light current. -/
theorem voc_falls (hn : Good n) {c : Cells} {A : ℝ} {f : ℝ → Five} (h : Has c A f) {T' T : ℝ} (hT' : 0 < kelvin T') (hT : T' ≤ T) (hI' : 0 < c.light + c.slope * T')
    (hI : 0 < c.light + c.slope * T) : ∃ o' o V' V, singlediode n (f T') = .ok o' ∧ singlediode n (f T) = .ok o ∧ o'.v_oc = fin V' ∧ o.v_oc = fin V ∧
      (Outweighs c T' T 0 V → V ≤ V') := by
  have hK : 0 < kelvin T := hT'.trans_le (by unfold kelvin; linarith)
  obtain ⟨o', V', -, -, a1, a2, -, -, -, -, -, -, a3, -⟩ := points hn h hT' hI'
  obtain ⟨o, V, imp, vmp, b1, b2, -, -, -, -, p1, p2, b3, -⟩ := points hn h hK hI
  refine ⟨o', o, V', V, a1, b1, a2, b2, fun ho => ?_⟩
  exact voltage_falls h.amp h.thermal h.shunt.le hT' hT (by linarith [p1.trans p2]) a3 b3 ho

/-- **C224**: the maximum power falls with temperature, if at the maximum power point of the hotter module the diodes outweigh the gain in light current. -/
theorem power_falls (hn : Good n) {c : Cells} {A : ℝ} {f : ℝ → Five} (h : Has c A f) {T' T : ℝ} (hT' : 0 < kelvin T') (hT : T' ≤ T) (hI' : 0 < c.light + c.slope * T')
    (hI : 0 < c.light + c.slope * T) : ∃ o' o P' P I V, singlediode n (f T') = .ok o' ∧ singlediode n (f T) = .ok o ∧ o'.p_mp = fin P' ∧ o.p_mp = fin P ∧ o.i_mp = fin I ∧
      o.v_mp = fin V ∧ (Outweighs c T' T I V → P ≤ P') := by
  have hK : 0 < kelvin T := hT'.trans_le (by unfold kelvin; linarith)
  obtain ⟨o', -, imp', vmp', a1, -, -, -, a2, -, -, -, -, -, a3, a4⟩ := points hn h hT' hI'
  obtain ⟨o, -, imp, vmp, b1, -, b2, b3, b4, p1, p2, -, -, b5, -⟩ := points hn h hK hI
  refine ⟨o', o, _, _, imp, vmp, a1, b1, a2, b4, b2, b3, fun ho => ?_⟩
  obtain ⟨v', hv'⟩ := a4 imp
  have hx : 0 ≤ vmp + imp * c.Rs := add_nonneg p2.le (mul_nonneg p1.le h.Rs)
  have := voltage_falls h.amp h.thermal h.shunt.le hT' hT hx hv' b5 ho
  have m := a3 _ _ hv'
  nlinarith

/-- If the light current does not grow with temperature and stays below the diode current at the band gap, the diodes outweigh it at the maximum power point. -/
theorem mpp_outweighs (hn : Good n) {c : Cells} {A : ℝ} {f : ℝ → Five} (h : Has c A f) {T' T : ℝ} (hT' : 0 < kelvin T') (hT : T' ≤ T) (hs : c.slope ≤ 0)
    (hI : 0 < c.light + c.slope * T) (hB : c.light + c.slope * T ≤ A * kelvin T ^ 3 * Real.exp (-c.barrier / kelvin T) * (Real.exp (c.barrier / kelvin T) - 1))
    {o : SevenPoints} {I V : ℝ} (ho : singlediode n (f T) = .ok o) (hi : o.i_mp = fin I) (hv : o.v_mp = fin V) : Outweighs c T' T I V := by
  have hK : 0 < kelvin T := hT'.trans_le (by unfold kelvin; linarith)
  obtain ⟨o1, V1, imp1, vmp1, a1, a2, a3, a4, a5, p1, p2, p3, d1, d2, -⟩ := points hn h hK hI
  obtain rfl := Except.ok.inj (ho.symm.trans a1)
  obtain rfl := Fl.fin.inj (hi.symm.trans a3)
  obtain rfl := Fl.fin.inj (hv.symm.trans a4)
  exact outweighs_of_slope h.amp h.thermal h.shunt.le hT' hT p1.le (add_nonneg p2.le (mul_nonneg p1.le h.Rs)) hs hB d2

/-- **C224**: if the light current does not grow with temperature and stays below the diode current at the band gap, both fall without further conditions. -/
theorem both_fall (hn : Good n) {c : Cells} {A : ℝ} {f : ℝ → Five} (h : Has c A f) {T' T : ℝ} (hT' : 0 < kelvin T') (hT : T' ≤ T) (hs : c.slope ≤ 0)
    (hI : 0 < c.light + c.slope * T) (hB : c.light + c.slope * T ≤ A * kelvin T ^ 3 * Real.exp (-c.barrier / kelvin T) * (Real.exp (c.barrier / kelvin T) - 1)) :
    ∃ o' o V' V P' P, singlediode n (f T') = .ok o' ∧ singlediode n (f T) = .ok o ∧ o'.v_oc = fin V' ∧ o.v_oc = fin V ∧ o'.p_mp = fin P' ∧ o.p_mp = fin P ∧ V ≤ V' ∧ P ≤ P' := by
  have hK : 0 < kelvin T := hT'.trans_le (by unfold kelvin; linarith)
  have hI' : 0 < c.light + c.slope * T' := by nlinarith
  obtain ⟨o1, V1, imp1, vmp1, a1, a2, a3, a4, a5, p1, p2, p3, d1, d2, -⟩ := points hn h hK hI
  obtain ⟨o', o, V', V, e1, e2, e3, e4, e5⟩ := voc_falls hn h hT' hT hI' hI
  obtain ⟨o'', o2, P', P, I, W, g1, g2, g3, g4, g5, g6, g7⟩ := power_falls hn h hT' hT hI' hI
  obtain rfl := Except.ok.inj (e1.symm.trans g1)
  obtain rfl := Except.ok.inj (e2.symm.trans g2)
  obtain rfl := Except.ok.inj (e2.symm.trans a1)
  obtain rfl := Fl.fin.inj (e4.symm.trans a2)
  obtain rfl := Fl.fin.inj (g5.symm.trans a3)
  obtain rfl := Fl.fin.inj (g6.symm.trans a4)
  refine ⟨_, _, _, _, _, _, e1, e2, e3, e4, g3, g4, e5 ?_, g7 ?_⟩
  · exact outweighs_of_slope h.amp h.thermal h.shunt.le hT' hT le_rfl (by linarith [p2.trans p3]) hs hB d1
  · exact outweighs_of_slope h.amp h.thermal h.shunt.le hT' hT p1.le (add_nonneg p2.le (mul_nonneg p1.le h.Rs)) hs hB d2

/-- The claims for one module model: results exist at both temperatures; open-circuit voltage and maximum power fall where the diodes outweigh the gain in light current. -/
def Falls (n : Numerics) (c : Cells) (cool hot : Five) (T' T : ℝ) : Prop :=
  ∃ o' o V' V P' P I W, singlediode n cool = .ok o' ∧ singlediode n hot = .ok o ∧ o'.v_oc = fin V' ∧ o.v_oc = fin V ∧ o'.p_mp = fin P' ∧ o.p_mp = fin P ∧
    o.i_mp = fin I ∧ o.v_mp = fin W ∧ (Outweighs c T' T 0 V → V ≤ V') ∧ (Outweighs c T' T I W → P ≤ P')

private theorem falls (hn : Good n) {c : Cells} {A : ℝ} {f : ℝ → Five} (h : Has c A f) {T' T : ℝ} (hT' : 0 < kelvin T') (hT : T' ≤ T) (hI' : 0 < c.light + c.slope * T')
    (hI : 0 < c.light + c.slope * T) : Falls n c (f T') (f T) T' T := by
  obtain ⟨o', o, V', V, e1, e2, e3, e4, e5⟩ := voc_falls hn h hT' hT hI' hI
  obtain ⟨o'', o2, P', P, I, W, g1, g2, g3, g4, g5, g6, g7⟩ := power_falls hn h hT' hT hI' hI
  obtain rfl := Except.ok.inj (e1.symm.trans g1)
  obtain rfl := Except.ok.inj (e2.symm.trans g2)
  exact ⟨_, _, _, _, _, _, _, _, e1, e2, e3, e4, g3, g4, g5, g6, e5, g7⟩

private theorem light_pos {a b IL al T T0 : ℝ} (ha : 0 < a) (hb : 0 < b) (h : 0 < IL + al * (T - T0)) : 0 < a / b * (IL - al * T0) + a / b * al * T := by
  have : a / b * (IL - al * T0) + a / b * al * T = a / b * (IL + al * (T - T0)) := by ring
  rw [this]
  positivity

/-- **C224**: `singlediode` of `calcparams_desoto`. -/
theorem desoto_falls (hn : Good n) {m : Module} (hm : m.Ok) {G T' T : ℝ} (hG : 0 < G) (hT' : 0 < kelvin T') (hT : T' ≤ T) (hI' : 0 < m.IL + m.alpha * (T' - m.T0))
    (hI : 0 < m.IL + m.alpha * (T - m.T0)) : Falls n (ofDesoto m G) (desoto m G T') (desoto m G T) T' T :=
  falls hn (desoto_has hm hG) hT' hT (light_pos hG hm.G0 hI') (light_pos hG hm.G0 hI)

/-- **C224**: `singlediode` of `calcparams_cec`. -/
theorem cec_falls (hn : Good n) {m : Module} (hm : m.Ok) {G T' T adjust : ℝ} (hG : 0 < G) (hT' : 0 < kelvin T') (hT : T' ≤ T)
    (hI' : 0 < m.IL + (m.alpha - m.alpha * adjust / 100) * (T' - m.T0)) (hI : 0 < m.IL + (m.alpha - m.alpha * adjust / 100) * (T - m.T0)) :
    Falls n (ofCec m adjust G) (cec m adjust G T') (cec m adjust G T) T' T :=
  falls hn (cec_has hm hG adjust) hT' hT (light_pos hG hm.G0 hI') (light_pos hG hm.G0 hI)

/-- **C224**: `singlediode` of `calcparams_pvsyst`, with an ideality factor that does not depend on temperature. -/
theorem pvsyst_falls (hn : Good n) {p : PModule} (hp : p.Ok) (hm : p.mu = 0) {G T' T : ℝ} (hG : 0 < G) (hS : 0 < p.shunt G) (hT' : 0 < kelvin T') (hT : T' ≤ T)
    (hI' : 0 < p.IL + p.alpha * (T' - p.T0)) (hI : 0 < p.IL + p.alpha * (T - p.T0)) : Falls n (ofPvsyst p G) (pvsyst p G T') (pvsyst p G T) T' T :=
  falls hn (pvsyst_has hp hm hS) hT' hT (light_pos hG hp.G0 hI') (light_pos hG hp.G0 hI)

/-- **C224**: De Soto and CEC modules whose light current does not grow with temperature: open-circuit voltage and maximum power fall, always, as long as the light current is
below the diode current at the band gap (for silicon by some ten orders of magnitude). -/
theorem desoto_no_gain (hn : Good n) {m : Module} (hm : m.Ok) {G T' T : ℝ} (hG : 0 < G) (hT' : 0 < kelvin T') (hT : T' ≤ T) (ha : m.alpha ≤ 0)
    (hI : 0 < m.IL + m.alpha * (T - m.T0))
    (hB : G / m.G0 * (m.IL + m.alpha * (T - m.T0)) ≤ m.sat T * (Real.exp (m.Eg * (1 - m.dEg * kelvin m.T0) / 8.617333262e-05 / kelvin T) - 1)) :
    ∃ o' o V' V P' P, singlediode n (desoto m G T') = .ok o' ∧ singlediode n (desoto m G T) = .ok o ∧ o'.v_oc = fin V' ∧ o.v_oc = fin V ∧ o'.p_mp = fin P' ∧ o.p_mp = fin P ∧
      V ≤ V' ∧ P ≤ P' := by
  have hK : 0 < kelvin T := hT'.trans_le (by unfold kelvin; linarith)
  have h := desoto_has hm hG
  have hs : (ofDesoto m G).slope ≤ 0 := mul_nonpos_of_nonneg_of_nonpos (div_pos hG hm.G0).le ha
  refine both_fall hn h hT' hT hs (light_pos hG hm.G0 hI) ?_
  obtain ⟨R, e, -⟩ := h.value T hK
  obtain ⟨R', e', -⟩ := desoto_value hm G T hK
  have es := congrArg Five.I0 (e'.symm.trans e)
  rw [Fl.fin.inj es] at hB
  have el : (ofDesoto m G).light + (ofDesoto m G).slope * T = G / m.G0 * (m.IL + m.alpha * (T - m.T0)) := by
    unfold ofDesoto; ring
  rw [el]
  exact hB

/-- Under the same conditions the diodes outweigh the gain at the maximum power point. -/
theorem desoto_outweighs (hn : Good n) {m : Module} (hm : m.Ok) {G T' T : ℝ} (hG : 0 < G) (hT' : 0 < kelvin T') (hT : T' ≤ T) (ha : m.alpha ≤ 0)
    (hI : 0 < m.IL + m.alpha * (T - m.T0))
    (hB : G / m.G0 * (m.IL + m.alpha * (T - m.T0)) ≤ m.sat T * (Real.exp (m.Eg * (1 - m.dEg * kelvin m.T0) / 8.617333262e-05 / kelvin T) - 1))
    {o : SevenPoints} {I V : ℝ} (ho : singlediode n (desoto m G T) = .ok o) (hi : o.i_mp = fin I) (hv : o.v_mp = fin V) : Outweighs (ofDesoto m G) T' T I V := by
  have hK : 0 < kelvin T := hT'.trans_le (by unfold kelvin; linarith)
  have h := desoto_has hm hG
  have hs : (ofDesoto m G).slope ≤ 0 := mul_nonpos_of_nonneg_of_nonpos (div_pos hG hm.G0).le ha
  refine mpp_outweighs hn h hT' hT hs (light_pos hG hm.G0 hI) ?_ ho hi hv
  obtain ⟨R, e, -⟩ := h.value T hK
  obtain ⟨R', e', -⟩ := desoto_value hm G T hK
  have es := congrArg Five.I0 (e'.symm.trans e)
  rw [Fl.fin.inj es] at hB
  have el : (ofDesoto m G).light + (ofDesoto m G).slope * T = G / m.G0 * (m.IL + m.alpha * (T - m.T0)) := by
    unfold ofDesoto; ring
  rw [el]
  exact hB

/-- PVsyst modules whose light current does not grow with temperature: as long as the light current is below the diode current at the band gap, the diodes outweigh the gain. -/
theorem pvsyst_outweighs (hn : Good n) {p : PModule} (hp : p.Ok) (hm : p.mu = 0) {G T' T : ℝ} (hG : 0 < G) (hT' : 0 < kelvin T') (hT : T' ≤ T) (ha : p.alpha ≤ 0)
    (hI : 0 < p.IL + p.alpha * (T - p.T0))
    (hB : G / p.G0 * (p.IL + p.alpha * (T - p.T0)) ≤ p.sat T * (Real.exp (qk * p.Eg / p.gamma / kelvin T) - 1))
    {o : SevenPoints} {I V : ℝ} (ho : singlediode n (pvsyst p G T) = .ok o) (hi : o.i_mp = fin I) (hv : o.v_mp = fin V) : Outweighs (ofPvsyst p G) T' T I V := by
  have hK : 0 < kelvin T := hT'.trans_le (by unfold kelvin; linarith)
  have hgam : p.gam T = p.gamma := by unfold PModule.gam; rw [hm]; ring
  have h := pvsyst_has hp hm ((pvsyst_shunt hp).2.1 G hG.le).2.2
  have hs : (ofPvsyst p G).slope ≤ 0 := mul_nonpos_of_nonneg_of_nonpos (div_pos hG hp.G0).le ha
  refine mpp_outweighs hn h hT' hT hs (light_pos hG hp.G0 hI) ?_ ho hi hv
  obtain ⟨R, e, -⟩ := h.value T hK
  have es := congrArg Five.I0 ((pvsyst_value hp G T hK (by rw [hgam]; exact hp.gamma.ne')).symm.trans e)
  rw [Fl.fin.inj es] at hB
  have el : (ofPvsyst p G).light + (ofPvsyst p G).slope * T = G / p.G0 * (p.IL + p.alpha * (T - p.T0)) := by
    unfold ofPvsyst; ring
  rw [el]
  exact hB

/-! ### The hypotheses can be met -/

private theorem big : (1e14 : ℝ) ≤ Real.exp (1.121 * (1 - -0.0002677 * kelvin 25) / 8.617333262e-05 / kelvin 25) := by
  have h1 : (2 : ℝ) ≤ Real.exp 1 := by have := Real.add_one_le_exp (1 : ℝ); linarith
  calc (1e14 : ℝ) ≤ 2 ^ 47 := by norm_num
    _ ≤ Real.exp 1 ^ 47 := pow_le_pow_left₀ (by norm_num) h1 47
    _ = Real.exp 47 := by rw [← Real.exp_nat_mul]; norm_num
    _ ≤ _ := Real.exp_le_exp.2 (by norm_num [kelvin])

theorem example_bound : (800 : ℝ) / ({ exampleModule with alpha := 0 } : Module).G0 * (({ exampleModule with alpha := 0 } : Module).IL +
    ({ exampleModule with alpha := 0 } : Module).alpha * (25 - ({ exampleModule with alpha := 0 } : Module).T0)) ≤ ({ exampleModule with alpha := 0 } : Module).sat 25 *
    (Real.exp (({ exampleModule with alpha := 0 } : Module).Eg * (1 - ({ exampleModule with alpha := 0 } : Module).dEg *
      kelvin ({ exampleModule with alpha := 0 } : Module).T0) / 8.617333262e-05 / kelvin 25) - 1) := by
  have hs : ({ exampleModule with alpha := 0 } : Module).sat 25 = 1e-10 := by
    simp [Module.sat, Module.gap, exampleModule, kelvin]
    norm_num
  rw [hs]
  have := big
  simp only [exampleModule]
  norm_num at this ⊢
  linarith

/-- The silicon module of 60 cells without temperature coefficient, at 25 and -10 degrees. -/
example : ∃ o' o V' V P' P, singlediode exists_good.choose (desoto { exampleModule with alpha := 0 } 800 (-10)) = .ok o' ∧
    singlediode exists_good.choose (desoto { exampleModule with alpha := 0 } 800 25) = .ok o ∧ o'.v_oc = fin V' ∧ o.v_oc = fin V ∧ o'.p_mp = fin P' ∧ o.p_mp = fin P ∧
    V ≤ V' ∧ P ≤ P' := by
  have ok : ({ exampleModule with alpha := 0 } : Module).Ok := by constructor <;> norm_num [exampleModule, kelvin]
  refine desoto_no_gain exists_good.choose_spec ok (by norm_num) (by norm_num [kelvin]) (by norm_num) (le_refl _) (by norm_num [exampleModule]) example_bound

/-- The same module with a light current that grows with temperature (by some positive amount): the condition is met at its maximum power point at 25 degrees. -/
example : ∃ al : ℝ, 0 < al ∧ ∃ o' o P' P, singlediode exists_good.choose (desoto { exampleModule with alpha := al } 1000 0) = .ok o' ∧
    singlediode exists_good.choose (desoto { exampleModule with alpha := al } 1000 25) = .ok o ∧ o'.p_mp = fin P' ∧ o.p_mp = fin P ∧ P ≤ P' := by
  have ok : ∀ al : ℝ, ({ exampleModule with alpha := al } : Module).Ok := fun al => by constructor <;> norm_num [exampleModule, kelvin]
  have hn := exists_good.choose_spec
  have hK : 0 < kelvin 25 := by norm_num [kelvin]
  have hK' : 0 < kelvin 0 := by norm_num [kelvin]
  have h0 := desoto_has (ok 0) (show (0 : ℝ) < 1000 by norm_num)
  have hI0 : 0 < (ofDesoto { exampleModule with alpha := 0 } 1000).light + (ofDesoto { exampleModule with alpha := 0 } 1000).slope * 25 := by
    norm_num [ofDesoto, exampleModule]
  obtain ⟨o, voc, I, V, s1, -, s2, s3, s4, p1, p2, -, -, d, -⟩ := points hn h0 hK hI0
  set c0 := ofDesoto { exampleModule with alpha := 0 } 1000 with hc0
  have hx : 0 < V + I * c0.Rs := add_pos_of_pos_of_nonneg p2 (mul_nonneg p1.le h0.Rs)
  -- the diode current and the distance from the band gap
  obtain ⟨R, ev, -⟩ := h0.value 25 hK
  obtain ⟨R', ev', -⟩ := desoto_value (ok 0) 1000 25 hK
  have hs : ({ exampleModule with alpha := 0 } : Module).sat 25 = 1e-10 := by
    simp [Module.sat, Module.gap, exampleModule, kelvin]
    norm_num
  have es := congrArg Five.I0 (ev'.symm.trans ev)
  rw [hs] at es
  have es' := Fl.fin.inj es
  rw [← es'] at d
  have harg : (V + I * c0.Rs) / (c0.thermal * kelvin 25) = c0.junction I V / kelvin 25 := by rw [Cells.junction, div_div]
  have hj : 0 < c0.junction I V := div_pos hx h0.thermal
  have hlost : c0.lost 25 I V = 1e-10 * (Real.exp (c0.junction I V / kelvin 25) - 1) := by
    unfold Diode at d
    rw [harg] at d
    unfold Cells.lost
    linarith
  have lpos : 0 < c0.lost 25 I V := by
    rw [hlost]
    have := Real.one_lt_exp_iff.2 (div_pos hj hK)
    exact mul_pos (by norm_num) (by linarith)
  have hl : c0.lost 25 I V ≤ 8.2 := by
    have e : c0.light + c0.slope * 25 = 8.2 := by norm_num [hc0, ofDesoto, exampleModule]
    have := mul_nonneg hx.le h0.shunt.le
    unfold Cells.lost
    linarith
  have hb : c0.barrier = 1.121 * (1 - -0.0002677 * kelvin 25) / 8.617333262e-05 := by simp only [hc0, ofDesoto, exampleModule]
  have hw : 0 < c0.barrier - c0.junction I V := by
    by_contra hle
    push Not at hle
    have h1 : c0.barrier / kelvin 25 ≤ c0.junction I V / kelvin 25 := div_le_div_of_nonneg_right (by linarith) hK.le
    have h2 := Real.exp_le_exp.2 h1
    have h3 := big
    rw [hb] at h2
    rw [hlost] at hl
    nlinarith
  set w := c0.barrier - c0.junction I V with hw'
  -- a coefficient small enough
  have hQ : 0 < kelvin 0 * kelvin 25 + w * (25 - 0) := by have := mul_pos hK' hK; linarith
  refine ⟨c0.lost 25 I V * w / (kelvin 0 * kelvin 25 + w * (25 - 0)), by positivity, ?_⟩
  set al := c0.lost 25 I V * w / (kelvin 0 * kelvin 25 + w * (25 - 0)) with hal
  have hal1 : al < 0.328 := by
    rw [hal, div_lt_iff₀ hQ]
    have := mul_pos hK' hK
    nlinarith
  have hal0 : 0 < al := by rw [hal]; positivity
  have same : desoto { exampleModule with alpha := al } 1000 25 = desoto { exampleModule with alpha := 0 } 1000 25 := by
    simp only [desoto, calcparamsDesoto, exampleModule, fin_add, fin_sub, fin_mul]
    norm_num
  obtain ⟨o1, o2, P', P, I2, V2, t1, t2, t3, t4, t5, t6, t7⟩ := power_falls hn (desoto_has (ok al) (show (0 : ℝ) < 1000 by norm_num)) hK' (by norm_num : (0 : ℝ) ≤ 25)
    (by simp only [ofDesoto, exampleModule]; nlinarith) (by norm_num [ofDesoto, exampleModule])
  rw [same] at t2
  obtain rfl := Except.ok.inj (s1.symm.trans t2)
  obtain rfl := Fl.fin.inj (t5.symm.trans s2)
  obtain rfl := Fl.fin.inj (t6.symm.trans s3)
  refine ⟨o1, o, P', P, t1, same ▸ s1, t3, t4, t7 ⟨?_, ?_⟩⟩
  · have : (ofDesoto { exampleModule with alpha := al } 1000).junction I2 V2 = c0.junction I2 V2 := rfl
    rw [this]
    exact (sub_pos.1 hw).le
  · have e1 : (ofDesoto { exampleModule with alpha := al } 1000).junction I2 V2 = c0.junction I2 V2 := rfl
    have e2 : (ofDesoto { exampleModule with alpha := al } 1000).barrier = c0.barrier := rfl
    have e3 : (ofDesoto { exampleModule with alpha := al } 1000).lost 25 I2 V2 = c0.lost 25 I2 V2 := by
      simp only [Cells.lost, ofDesoto, exampleModule, hc0]
      norm_num
    have e4 : (ofDesoto { exampleModule with alpha := al } 1000).slope = al := by
      simp only [ofDesoto, exampleModule]
      norm_num
    rw [e1, e2, e3, e4, ← hw', hal, div_mul_cancel₀ _ hQ.ne']

end Pvlib.Props.Warm
