import Verif.Model.Sdm
import Verif.Props.SdmExtract

/-! # Property C151: `fit_pvsyst_iec61853_sandia_2025` -/

noncomputable section
open scoped Classical
namespace Pvlib.Props.SdmIec
open Fl Pvlib.PvFunctions Pvlib.SingleDiode Pvlib.Sdm Pvlib.Props.SandiaSimple Pvlib.Props.SdmExtract

/-- One measurement. -/
structure Row where
  (g t isc voc imp vmp : ℝ)

/-- The measurement as the model's. -/
def Row.meas (r : Row) : Meas := ⟨fin r.g, fin r.t, fin r.isc, fin r.voc, fin r.imp, fin r.vmp⟩

/-! ### Least squares with an exact solution -/

private theorem line_recovers {lib : Sde.LinLib} (hl : Good lib) (pts : List (ℝ × ℝ)) (s b : ℝ)
    (h : ∀ p ∈ pts, p.2 = s * p.1 + b) (hd : ∃ p ∈ pts, ∃ q ∈ pts, p.1 ≠ q.1) : lib.polyfit1 (lift pts) = (fin s, fin b) := by
  obtain ⟨p, hp, q, hq, hpq⟩ := hd
  obtain ⟨s', b', he, hm⟩ := hl.line pts (List.ne_nil_of_mem hp)
  have h0 : lineSsr pts s b = 0 := by
    unfold lineSsr
    apply List.sum_eq_zero
    intro z hz
    obtain ⟨r, hr, rfl⟩ := List.mem_map.mp hz
    rw [h r hr]; ring
  have h1 : lineSsr pts s' b' = 0 := le_antisymm (by rw [← h0]; exact hm s b) (by
    unfold lineSsr
    apply List.sum_nonneg
    intro z hz
    obtain ⟨r, -, rfl⟩ := List.mem_map.mp hz
    positivity)
  have h2 : ∀ r ∈ pts, s' * r.1 + b' = r.2 := by
    intro r hr
    have hn : ∀ z ∈ pts.map fun p => (s' * p.1 + b' - p.2) ^ 2, 0 ≤ z := by
      intro z hz
      obtain ⟨r, -, rfl⟩ := List.mem_map.mp hz
      positivity
    have := List.single_le_sum hn _ (List.mem_map_of_mem hr)
    have h3 : (s' * r.1 + b' - r.2) ^ 2 = 0 := le_antisymm (by unfold lineSsr at h1; linarith) (by positivity)
    have := pow_eq_zero_iff (two_ne_zero) |>.mp h3
    linarith
  have e1 := h p hp; have e2 := h q hq; have e3 := h2 p hp; have e4 := h2 q hq
  have hs : s' = s := by
    have : (s' - s) * (p.1 - q.1) = 0 := by linarith
    rcases mul_eq_zero.mp this with h | h
    · linarith
    · exact absurd (by linarith) hpq
  have hb : b' = b := by rw [hs] at e3; linarith
  rw [he, hs, hb]

/-- The equations determine the unknowns. -/
def Determined (k : ℕ) (rows : List (List ℝ)) : Prop :=
  ∀ a : List ℝ, a.length = k → (∀ r ∈ rows, (List.zipWith (· * ·) r a).sum = 0) → a = List.replicate k 0

private theorem zip_sub (r x y : List ℝ) (hx : x.length = y.length) :
    (List.zipWith (· * ·) r (List.zipWith (· - ·) x y)).sum =
      (List.zipWith (· * ·) r x).sum - (List.zipWith (· * ·) r y).sum := by
  induction r generalizing x y with
  | nil => simp
  | cons a r ih =>
    match x, y, hx with
    | [], [], _ => simp
    | b :: x, c :: y, hx =>
      simp only [List.zipWith_cons_cons, List.sum_cons]
      rw [ih x y (by simpa using hx)]
      ring

private theorem lstsq_recovers {lib : Sde.LinLib} (hl : Good lib) (k : ℕ) (eqs : List (List ℝ × ℝ)) (h0 : eqs ≠ [])
    (hk : ∀ e ∈ eqs, e.1.length = k) (y : List ℝ) (hy : y.length = k) (hsol : ∀ e ∈ eqs, (List.zipWith (· * ·) e.1 y).sum = e.2)
    (hr : Determined k (eqs.map Prod.fst)) : lib.lstsq (liftEqs eqs) = y.map fin := by
  obtain ⟨x, hx, he, hs⟩ := lstsq_solves hl k eqs h0 hk y hy hsol
  have hz := hr (List.zipWith (· - ·) x y) (by simp [hx, hy]) (by
    intro r hr
    obtain ⟨e, he, rfl⟩ := List.mem_map.mp hr
    rw [zip_sub _ _ _ (by rw [hx, hy]), hs e he, hsol e he, sub_self])
  have : x = y := by
    have key : ∀ (k : ℕ) (x y : List ℝ), x.length = k → y.length = k → List.zipWith (· - ·) x y = List.replicate k 0 → x = y := by
      intro k
      induction k with
      | zero => intro x y hx hy _; rw [List.eq_nil_of_length_eq_zero hx, List.eq_nil_of_length_eq_zero hy]
      | succ k ih =>
        intro x y hx hy h
        match x, y, hx, hy with
        | a :: x, b :: y, hx, hy =>
          simp only [List.zipWith_cons_cons, List.replicate_succ, List.cons.injEq] at h
          rw [ih x y (by simpa using hx) (by simpa using hy) h.2, show a = b by linarith [h.1]]
    exact key k x y hx hy hz
  rw [he, this]

private theorem det_one {l : List ℝ} (h : ∃ x ∈ l, x ≠ 0) : Determined 1 (l.map fun x => [x]) := by
  intro a ha hz
  match a, ha with
  | [a], _ =>
    obtain ⟨x, hx, hx0⟩ := h
    have := hz [x] (List.mem_map_of_mem hx)
    simp only [List.zipWith_cons_cons, List.zipWith_nil_left, List.sum_cons, List.sum_nil, add_zero] at this
    have := (mul_eq_zero.mp this).resolve_left hx0
    simp [this]

private theorem det_two {l : List ℝ} (h : ∃ x ∈ l, ∃ y ∈ l, x ≠ y) : Determined 2 (l.map fun x => [1, x]) := by
  intro a ha hz
  match a, ha with
  | [a, b], _ =>
    obtain ⟨x, hx, y, hy, hxy⟩ := h
    have h1 := hz [1, x] (List.mem_map_of_mem hx)
    have h2 := hz [1, y] (List.mem_map_of_mem hy)
    simp only [List.zipWith_cons_cons, List.zipWith_nil_left, List.sum_cons, List.sum_nil, add_zero, one_mul] at h1 h2
    have hb : b = 0 := by
      have : (x - y) * b = 0 := by linarith
      exact (mul_eq_zero.mp this).resolve_left (sub_ne_zero.mpr hxy)
    have ha : a = 0 := by rw [hb] at h1; linarith
    simp [ha, hb]

/-! ### The model's helpers over the reals -/

/-- Thermal voltage of the cell string. -/
def nsvth (Ns t : ℝ) : ℝ := kB / qe * Ns * kel t

/-- Saturation current of a PVsyst module. -/
def sat (I0 Eg γ t : ℝ) : ℝ := I0 * (kel t / 298.15) ^ 3 * Real.exp (qe * Eg / (kB * γ) * (1 / 298.15 - 1 / kel t))

private theorem hb0 : kB ≠ 0 := by unfold kB; norm_num
private theorem hq0 : qe ≠ 0 := by unfold qe; norm_num
private theorem e1000 : (1000 : Fl) = fin 1000 := ofNat_eq
private theorem e25 : (25 : Fl) = fin 25 := ofNat_eq
private theorem e3 : (3 : Fl) = fin 3 := ofNat_eq
private theorem h273 : (25 : ℝ) + 273.15 = 298.15 := by norm_num

private theorem nNsVth_fin (t γ Ns : ℝ) : pvsystNNsVth (fin t) (fin γ) (fin Ns) = fin (γ * nsvth Ns t) := by
  unfold pvsystNNsVth nsvth
  rw [fin_mul, fin_div hq0, fin_mul, fin_add, fin_mul, fin_inj]
  ring

private theorem io_fin {t γ : ℝ} (I0 Eg : ℝ) (ht : 0 < kel t) (hγ : γ ≠ 0) :
    pvsystIo (fin t) (fin γ) (fin I0) (fin Eg) = fin (sat I0 Eg γ t) := by
  unfold pvsystIo sat
  dsimp only
  rw [e25, one_eq]
  simp only [fin_add, h273, fin_mul]
  rw [fin_div (by norm_num), fin_pow, fin_mul, fin_div (mul_ne_zero hb0 hγ), fin_div (by norm_num), fin_div ht.ne', fin_sub,
    fin_mul, exp_fin, fin_mul]

private theorem gamma_fin (t γ μ : ℝ) : pvsystGamma (fin t) (fin γ) (fin μ) = fin (γ + μ * (t - 25)) := by
  unfold pvsystGamma; rw [e25, fin_sub, fin_mul, fin_add]

private theorem rsh_fin (E ref r0 : ℝ) : pvsystRsh (fin E) (fin ref) (fin r0) (fin 5.5) = fin (shunt E ref r0) := by
  have hlt : Real.exp (-5.5) < 1 := by rw [Real.exp_lt_one_iff]; norm_num
  unfold pvsystRsh shunt
  dsimp only
  rw [e1000, zero_eq, one_eq]
  simp only [neg_fin, exp_fin, fin_mul, fin_sub]
  rw [fin_div (by linarith), maximum_fin, fin_sub, fin_div (by norm_num), exp_fin, fin_mul, fin_add]

private theorem expm1_fin (x : ℝ) : expm1 (fin x) = fin (Real.exp x - 1) := rfl

/-! ### The steps -/

/-- **C151, temperature coefficient.**  Values `v0 (1 + μ (t - 25))` at two temperatures or more give `μ`. -/
theorem tempco_exact {lib : Sde.LinLib} (hl : Good lib) (pts : List (ℝ × ℝ)) (v0 μ : ℝ) (hv : v0 ≠ 0)
    (h : ∀ p ∈ pts, p.2 = v0 * (1 + μ * (p.1 - 25))) (hd : ∃ p ∈ pts, ∃ q ∈ pts, p.1 ≠ q.1) :
    fitTempco lib (lift pts) = fin μ := by
  unfold fitTempco
  rw [line_recovers hl pts (v0 * μ) (v0 * (1 - 25 * μ)) (fun p hp => by rw [h p hp]; ring) hd]
  dsimp only
  rw [e25, fin_mul, fin_add, show v0 * (1 - 25 * μ) + v0 * μ * 25 = v0 by ring, fin_div hv, mul_div_cancel_left₀ _ hv]

/-- **C151, shunt resistance.**  If the estimates of Eq. 10 at irradiances of `min_irradiance` or more follow
`base + (r0 - base) exp(-5.5 g / 1000)`, at two irradiances or more, the fit returns `r0` and `R_sh_ref = base (1 - e^-5.5) + r0 e^-5.5`;
and with `base ≥ 0` the PVsyst shunt resistance of these parameters is that curve at every irradiance. -/
theorem shunt_exact {lib : Sde.LinLib} (hl : Good lib) (rows : List Row) (β coeff gmin base r0 : ℝ)
    (hden : ∀ r ∈ rows, gmin ≤ r.g → 1 + β * (r.t - 25) ≠ 0 ∧ coeff * (r.isc - r.imp) ≠ 0)
    (h : ∀ r ∈ rows, gmin ≤ r.g → r.vmp / (1 + β * (r.t - 25)) / (coeff * (r.isc - r.imp)) =
      base + (r0 - base) * Real.exp (-5.5 * r.g / 1000))
    (hd : ∃ r ∈ rows, ∃ s ∈ rows, gmin ≤ r.g ∧ gmin ≤ s.g ∧ r.g ≠ s.g) :
    fitShunt lib (rows.map Row.meas) (fin β) (fin coeff) (fin gmin) =
      (fin (base * (1 - Real.exp (-5.5)) + r0 * Real.exp (-5.5)), fin r0) ∧
    (0 ≤ base → ∀ g, shunt g (base * (1 - Real.exp (-5.5)) + r0 * Real.exp (-5.5)) r0 = base + (r0 - base) * Real.exp (-5.5 * g / 1000)) := by
  have hlt : Real.exp (-5.5) < 1 := by rw [Real.exp_lt_one_iff]; norm_num
  constructor
  · have e : (((rows.map Row.meas).filter fun m => fin gmin ≤ m.g).map fun m =>
        (Fl.exp (fin (-5.5) * m.g / 1000), m.v_mp / (1 + fin β * (m.t - 25)) / (fin coeff * (m.i_sc - m.i_mp)))) =
        lift ((rows.filter fun r => gmin ≤ r.g).map fun r => (Real.exp (-5.5 * r.g / 1000), base + (r0 - base) * Real.exp (-5.5 * r.g / 1000))) := by
      have hf : ((rows.map Row.meas).filter fun m => fin gmin ≤ m.g) = (rows.filter fun r => gmin ≤ r.g).map Row.meas := by
        rw [List.filter_map]
        rfl
      rw [hf]
      unfold lift
      rw [List.map_map, List.map_map]
      refine List.map_congr_left fun r hr => ?_
      obtain ⟨hr1, hr2⟩ := List.mem_filter.mp hr
      have hr2 : gmin ≤ r.g := by simpa using hr2
      obtain ⟨d1, d2⟩ := hden r hr1 hr2
      simp only [Function.comp_apply, Row.meas]
      rw [e1000, e25, one_eq]
      simp only [fin_mul, fin_sub, fin_add]
      rw [fin_div (by norm_num), exp_fin, fin_div d1, fin_div d2, h r hr1 hr2]
    unfold fitShunt
    dsimp only
    rw [e, line_recovers hl _ (r0 - base) base]
    · dsimp only
      rw [exp_fin, one_eq, fin_add, fin_sub, fin_mul, fin_mul, fin_add]
      simp
    · intro p hp
      obtain ⟨r, -, rfl⟩ := List.mem_map.mp hp
      ring
    · obtain ⟨r, hr, s, hs, hrg, hsg, hne⟩ := hd
      refine ⟨_, List.mem_map_of_mem (List.mem_filter.mpr ⟨hr, by simpa using hrg⟩), _,
        List.mem_map_of_mem (List.mem_filter.mpr ⟨hs, by simpa using hsg⟩), ?_⟩
      intro he
      have := Real.exp_injective he
      exact hne (by linarith)
  · intro hbase g
    unfold shunt
    have : (base * (1 - Real.exp (-5.5)) + r0 * Real.exp (-5.5) - r0 * Real.exp (-5.5)) / (1 - Real.exp (-5.5)) = base := by
      rw [add_sub_cancel_right, mul_div_cancel_right₀ _ (by linarith)]
    rw [this, max_eq_right hbase]

/-- **C151, series resistance.**  If `voc = c0 + Rs imp + c2 log imp + c3 vmp` at every point, and the points determine the four
coefficients, the fit returns `Rs`. -/
theorem series_exact {lib : Sde.LinLib} (hl : Good lib) (rows : List Row) (c0 Rs c2 c3 : ℝ) (h0 : rows ≠ []) (hp : ∀ r ∈ rows, 0 < r.imp)
    (h : ∀ r ∈ rows, r.voc = c0 + Rs * r.imp + c2 * Real.log r.imp + c3 * r.vmp)
    (hd : Determined 4 (rows.map fun r => [1, r.imp, Real.log r.imp, r.vmp])) :
    fitSeries lib (rows.map Row.meas) = fin Rs := by
  have e : ((rows.map Row.meas).map fun m => (([1, m.i_mp, Fl.log m.i_mp, m.v_mp], m.v_oc) : List Fl × Fl)) =
      liftEqs (rows.map fun r => ([1, r.imp, Real.log r.imp, r.vmp], r.voc)) := by
    unfold liftEqs
    rw [List.map_map, List.map_map]
    refine List.map_congr_left fun r hr => ?_
    simp only [Function.comp_apply, Row.meas, log_fin (hp r hr), one_eq, List.map_cons, List.map_nil]
  unfold fitSeries
  rw [e, lstsq_recovers hl 4 _ (by simpa using h0) (by
      intro e he
      obtain ⟨r, -, rfl⟩ := List.mem_map.mp he
      rfl) [c0, Rs, c2, c3] rfl (by
      intro e he
      obtain ⟨r, hr, rfl⟩ := List.mem_map.mp he
      simp only [List.zipWith_cons_cons, List.zipWith_nil_left, List.sum_cons, List.sum_nil]
      rw [h r hr]; ring) (by rw [List.map_map]; exact hd)]
  rfl

/-- **C151, first diode factor.**  Suppose that at every point used the single diode equation holds at short circuit without diode
current, and at open circuit and maximum power with `exp` for `exp - 1`.  Then the fit returns the diode factor. -/
theorem gamma_exact {lib : Sde.LinLib} (hl : Good lib) (rows : List Row) (ref r0 Rs Ns γ : ℝ) (IL Io : Row → ℝ) (hN : 0 < Ns) (hγ : γ ≠ 0)
    (hpos : ∀ r ∈ rows, 0 < kel r.t ∧ shunt r.g ref r0 ≠ 0 ∧ 0 < Io r)
    (hsc : ∀ r ∈ rows, r.isc = IL r - r.isc * Rs / shunt r.g ref r0)
    (hoc : ∀ r ∈ rows, 0 = IL r - Io r * Real.exp (r.voc / (γ * nsvth Ns r.t)) - r.voc / shunt r.g ref r0)
    (hmp : ∀ r ∈ rows, r.imp = IL r - Io r * Real.exp ((r.vmp + r.imp * Rs) / (γ * nsvth Ns r.t)) -
      (r.vmp + r.imp * Rs) / shunt r.g ref r0)
    (hd : ∃ r ∈ rows, r.vmp + r.imp * Rs ≠ r.voc) :
    fitGamma lib (rows.map Row.meas) (fin ref) (fin r0) (fin 5.5) (fin Rs) (fin Ns) = fin γ := by
  set x : Row → ℝ := fun r => (r.vmp + r.imp * Rs - r.voc) / γ with hx
  obtain ⟨r1, hr1, hne⟩ := hd
  have e : ((rows.map Row.meas).map fun m =>
      let NsVth := pvsystNNsVth m.t 1 (fin Ns)
      let Rsh := pvsystRsh m.g (fin ref) (fin r0) (fin 5.5)
      let term1 := m.i_sc * (1 + fin Rs / Rsh) - m.v_oc / Rsh
      let term2 := (m.i_sc - m.i_mp) * (1 + fin Rs / Rsh) - m.v_mp / Rsh
      (([NsVth * Fl.log (term2 / term1)], m.v_mp + m.i_mp * fin Rs - m.v_oc) : List Fl × Fl)) =
      liftEqs (rows.map fun r => ([x r], r.vmp + r.imp * Rs - r.voc)) := by
    unfold liftEqs
    rw [List.map_map, List.map_map]
    refine List.map_congr_left fun r hr => ?_
    obtain ⟨ht, hR, hI⟩ := hpos r hr
    have hv : nsvth Ns r.t ≠ 0 := by
      unfold nsvth
      exact mul_ne_zero (mul_ne_zero (div_ne_zero hb0 hq0) hN.ne') ht.ne'
    have t1 : r.isc * (1 + Rs / shunt r.g ref r0) - r.voc / shunt r.g ref r0 = Io r * Real.exp (r.voc / (γ * nsvth Ns r.t)) := by
      have a1 := hsc r hr
      have a2 := hoc r hr
      have : r.isc * (1 + Rs / shunt r.g ref r0) = r.isc + r.isc * Rs / shunt r.g ref r0 := by ring
      linarith
    have t2 : (r.isc - r.imp) * (1 + Rs / shunt r.g ref r0) - r.vmp / shunt r.g ref r0 =
        Io r * Real.exp ((r.vmp + r.imp * Rs) / (γ * nsvth Ns r.t)) := by
      have a1 := hsc r hr
      have a2 := hmp r hr
      have : (r.isc - r.imp) * (1 + Rs / shunt r.g ref r0) - r.vmp / shunt r.g ref r0 =
        (r.isc + r.isc * Rs / shunt r.g ref r0) - r.imp - (r.vmp + r.imp * Rs) / shunt r.g ref r0 := by ring
      linarith
    have hp1 : 0 < Io r * Real.exp (r.voc / (γ * nsvth Ns r.t)) := by positivity
    have hp2 : 0 < Io r * Real.exp ((r.vmp + r.imp * Rs) / (γ * nsvth Ns r.t)) := by positivity
    simp only [Function.comp_apply, Row.meas]
    rw [one_eq, nNsVth_fin, rsh_fin]
    simp only [fin_mul, fin_sub, fin_add, fin_div hR]
    rw [t1, t2, fin_div hp1.ne', log_fin (by positivity), fin_mul]
    simp only [List.map_cons, List.map_nil, Prod.mk.injEq, List.cons.injEq, fin_inj, and_true]
    rw [mul_div_mul_left _ _ hI.ne', ← Real.exp_sub, Real.log_exp, hx]
    field_simp
  unfold fitGamma
  rw [e, lstsq_recovers hl 1 _ (by
      intro h
      rw [List.map_eq_nil_iff] at h
      rw [h] at hr1
      simp at hr1) (by
      intro e he
      obtain ⟨r, -, rfl⟩ := List.mem_map.mp he
      rfl) [γ] rfl (by
      intro e he
      obtain ⟨r, hr, rfl⟩ := List.mem_map.mp he
      simp only [List.zipWith_cons_cons, List.zipWith_nil_left, List.sum_cons, List.sum_nil, hx]
      field_simp
      ring) (by
      rw [List.map_map]
      have := det_one (l := rows.map x) ⟨_, List.mem_map_of_mem hr1, div_ne_zero (sub_ne_zero.mpr hne) hγ⟩
      rwa [List.map_map] at this)]
  rfl

/-- **C151, saturation current.**  If open circuit satisfies the single diode equation with `IL = isc (1 + Rs/Rsh)` and the PVsyst
saturation current at every point, the fit returns the reference saturation current. -/
theorem saturation_exact (rows : List Row) (ref r0 Rs Ns γ μ I0 Eg : ℝ) (h0 : rows ≠ []) (hI : 0 < I0)
    (hpos : ∀ r ∈ rows, 0 < kel r.t ∧ shunt r.g ref r0 ≠ 0 ∧ γ + μ * (r.t - 25) ≠ 0 ∧ nsvth Ns r.t ≠ 0 ∧ r.voc ≠ 0)
    (hoc : ∀ r ∈ rows, 0 = r.isc * (1 + Rs / shunt r.g ref r0) - sat I0 Eg (γ + μ * (r.t - 25)) r.t *
      (Real.exp (r.voc / ((γ + μ * (r.t - 25)) * nsvth Ns r.t)) - 1) - r.voc / shunt r.g ref r0) :
    fitSaturation (rows.map Row.meas) (fin γ) (fin μ) (fin ref) (fin r0) (fin 5.5) (fin Rs) (fin Ns) (fin Eg) = fin I0 := by
  unfold fitSaturation
  rw [meanOf_const (x := Real.log I0) (by simpa using h0), exp_fin, Real.exp_log hI]
  intro y hy
  rw [List.map_map] at hy
  obtain ⟨r, hr, rfl⟩ := List.mem_map.mp hy
  obtain ⟨ht, hR, hg, hv, hvoc⟩ := hpos r hr
  simp only [Function.comp_apply, Row.meas]
  rw [rsh_fin, gamma_fin, nNsVth_fin, one_eq, io_fin 1 Eg ht hg]
  simp only [fin_div hR, fin_add, fin_mul, fin_sub, fin_div (mul_ne_zero hg hv), expm1_fin]
  have hne : Real.exp (r.voc / ((γ + μ * (r.t - 25)) * nsvth Ns r.t)) - 1 ≠ 0 := by
    intro he
    have : Real.exp (r.voc / ((γ + μ * (r.t - 25)) * nsvth Ns r.t)) = 1 := by linarith
    rw [Real.exp_eq_one_iff, div_eq_zero_iff] at this
    rcases this with h | h
    · exact hvoc h
    · exact mul_ne_zero hg hv h
  have hs : (r.isc * (1 + Rs / shunt r.g ref r0) - r.voc / shunt r.g ref r0) =
      sat I0 Eg (γ + μ * (r.t - 25)) r.t * (Real.exp (r.voc / ((γ + μ * (r.t - 25)) * nsvth Ns r.t)) - 1) := by
    have := hoc r hr; linarith
  have hK : 0 < kel r.t / 298.15 := div_pos ht (by norm_num)
  have hs1 : 0 < sat 1 Eg (γ + μ * (r.t - 25)) r.t := by unfold sat; positivity
  have hs2 : sat I0 Eg (γ + μ * (r.t - 25)) r.t = I0 * sat 1 Eg (γ + μ * (r.t - 25)) r.t := by unfold sat; ring
  rw [hs, fin_div hne, mul_div_cancel_right₀ _ hne, hs2, log_fin (by positivity), log_fin hs1, fin_sub, fin_inj,
    Real.log_mul hI.ne' hs1.ne']
  ring

/-- **C151, photocurrent.**  If short circuit satisfies the single diode equation at every point, with the PVsyst light current and
saturation current, the fit returns the reference light current. -/
theorem photocurrent_exact {lib : Sde.LinLib} (hl : Good lib) (rows : List Row) (ref r0 Rs Ns γ μ α IL I0 Eg : ℝ)
    (hpos : ∀ r ∈ rows, 0 < kel r.t ∧ shunt r.g ref r0 ≠ 0 ∧ γ + μ * (r.t - 25) ≠ 0 ∧ nsvth Ns r.t ≠ 0)
    (hsc : ∀ r ∈ rows, r.isc = r.g / 1000 * (IL + α * (r.t - 25)) - sat I0 Eg (γ + μ * (r.t - 25)) r.t *
      (Real.exp (r.isc * Rs / ((γ + μ * (r.t - 25)) * nsvth Ns r.t)) - 1) - r.isc * Rs / shunt r.g ref r0)
    (hd : ∃ r ∈ rows, r.g ≠ 0) :
    fitPhotocurrent lib (rows.map Row.meas) (fin α) (fin γ) (fin μ) (fin I0) (fin ref) (fin r0) (fin 5.5) (fin Rs) (fin Ns) (fin Eg) =
      fin IL := by
  obtain ⟨r1, hr1, hne⟩ := hd
  have e : ((rows.map Row.meas).map fun m =>
      let R_sh := pvsystRsh m.g (fin ref) (fin r0) (fin 5.5)
      let gamma := pvsystGamma m.t (fin γ) (fin μ)
      let I_o := pvsystIo m.t gamma (fin I0) (fin Eg)
      let nNsVth := pvsystNNsVth m.t gamma (fin Ns)
      let I_L_est := m.i_sc + I_o * expm1 (m.i_sc * fin Rs / nNsVth) + m.i_sc * fin Rs / R_sh
      (([m.g / 1000], I_L_est - m.g / 1000 * fin α * (m.t - 25)) : List Fl × Fl)) =
      liftEqs (rows.map fun r => ([r.g / 1000], r.g / 1000 * IL)) := by
    unfold liftEqs
    rw [List.map_map, List.map_map]
    refine List.map_congr_left fun r hr => ?_
    obtain ⟨ht, hR, hg, hv⟩ := hpos r hr
    simp only [Function.comp_apply, Row.meas]
    rw [rsh_fin, gamma_fin, nNsVth_fin, io_fin I0 Eg ht hg, e1000, e25]
    simp only [fin_mul, fin_div hR, fin_div (mul_ne_zero hg hv), expm1_fin, fin_add, fin_sub, fin_div (show (1000 : ℝ) ≠ 0 by norm_num),
      List.map_cons, List.map_nil, Prod.mk.injEq, fin_inj, true_and]
    have := hsc r hr
    linarith
  unfold fitPhotocurrent
  rw [e, lstsq_recovers hl 1 _ (by
      intro h
      rw [List.map_eq_nil_iff] at h
      rw [h] at hr1
      simp at hr1) (by
      intro e he
      obtain ⟨r, -, rfl⟩ := List.mem_map.mp he
      rfl) [IL] rfl (by
      intro e he
      obtain ⟨r, hr, rfl⟩ := List.mem_map.mp he
      simp) (by
      rw [List.map_map]
      have := det_one (l := rows.map fun r => r.g / 1000) ⟨_, List.mem_map_of_mem hr1, div_ne_zero hne (by norm_num)⟩
      rwa [List.map_map] at this)]
  rfl

/-- **C151, final diode factor.**  If the maximum power point satisfies the single diode equation at every point, with `exp` for
`exp - 1`, the PVsyst light current and saturation current and the diode factor `γ + μ (t - 25)`, at two temperatures or more, the
fit returns `γ` and `μ`. -/
theorem gamma_post_exact {lib : Sde.LinLib} (hl : Good lib) (rows : List Row) (ref r0 Rs Ns γ μ α IL I0 Eg : ℝ) (hI : 0 < I0)
    (hpos : ∀ r ∈ rows, 0 < kel r.t ∧ shunt r.g ref r0 ≠ 0 ∧ γ + μ * (r.t - 25) ≠ 0 ∧ nsvth Ns r.t ≠ 0)
    (hmp : ∀ r ∈ rows, r.imp = r.g / 1000 * (IL + α * (r.t - 25)) - sat I0 Eg (γ + μ * (r.t - 25)) r.t *
      Real.exp ((r.vmp + r.imp * Rs) / ((γ + μ * (r.t - 25)) * nsvth Ns r.t)) - (r.vmp + r.imp * Rs) / shunt r.g ref r0)
    (hnum : ∀ r ∈ rows, qe * Eg / kB * (1 / 298.15 - 1 / kel r.t) + (r.vmp + r.imp * Rs) / nsvth Ns r.t ≠ 0)
    (hd : ∃ r ∈ rows, ∃ s ∈ rows, r.t ≠ s.t) :
    fitGammaPost lib (rows.map Row.meas) (fin α) (fin IL) (fin I0) (fin ref) (fin r0) (fin 5.5) (fin Rs) (fin Ns) (fin Eg) =
      (fin γ, fin μ) := by
  obtain ⟨r1, hr1, r2, hr2, hne⟩ := hd
  have est : ∀ r ∈ rows, gammaEst r.meas (fin α) (fin IL) (fin I0) (fin ref) (fin r0) (fin 5.5) (fin Rs) (fin Ns) (fin Eg) =
      fin (γ + μ * (r.t - 25)) := by
    intro r hr
    obtain ⟨ht, hR, hg, hv⟩ := hpos r hr
    have hm := hmp r hr
    have hn := hnum r hr
    set G := γ + μ * (r.t - 25) with hG
    have hK : 0 < kel r.t / 298.15 := div_pos ht (by norm_num)
    have hsat : 0 < sat I0 Eg G r.t := by unfold sat; positivity
    have hmp' : r.g / 1000 * (IL + α * (r.t + 273.15 - 298.15)) - r.imp - (r.vmp + r.imp * Rs) / shunt r.g ref r0 =
        sat I0 Eg G r.t * Real.exp ((r.vmp + r.imp * Rs) / (G * nsvth Ns r.t)) := by
      have : r.t + 273.15 - 298.15 = r.t - 25 := by norm_num; ring
      rw [this]; linarith
    have hden : Real.log (sat I0 Eg G r.t * Real.exp ((r.vmp + r.imp * Rs) / (G * nsvth Ns r.t)) / I0) - 3 * Real.log (kel r.t / 298.15) =
        (qe * Eg / kB * (1 / 298.15 - 1 / kel r.t) + (r.vmp + r.imp * Rs) / nsvth Ns r.t) / G := by
      unfold sat
      rw [show I0 * (kel r.t / 298.15) ^ 3 * Real.exp (qe * Eg / (kB * G) * (1 / 298.15 - 1 / kel r.t)) *
          Real.exp ((r.vmp + r.imp * Rs) / (G * nsvth Ns r.t)) / I0 = (kel r.t / 298.15) ^ 3 *
          (Real.exp (qe * Eg / (kB * G) * (1 / 298.15 - 1 / kel r.t)) * Real.exp ((r.vmp + r.imp * Rs) / (G * nsvth Ns r.t))) by
        field_simp, ← Real.exp_add, Real.log_mul (by positivity) (Real.exp_ne_zero _), Real.log_pow, Real.log_exp]
      have := hb0
      push_cast
      field_simp
      ring
    unfold gammaEst pvsystIL
    simp only [Row.meas]
    rw [rsh_fin, e1000, e25, one_eq, nNsVth_fin, one_mul, e3]
    simp only [fin_add, fin_mul, fin_sub, h273, fin_div hR, fin_div hv, fin_div hb0, fin_div (show (298.15 : ℝ) ≠ 0 by norm_num), fin_div ht.ne',
      fin_div (show (1000 : ℝ) ≠ 0 by norm_num), fin_div hI.ne']
    rw [hmp', log_fin (by positivity), log_fin hK, fin_mul, fin_sub, hden, fin_div (div_ne_zero hn hg), fin_inj]
    unfold kel at hn ⊢
    rw [div_div_eq_mul_div, mul_div_cancel_left₀ _ hn]
  have e : ((rows.map Row.meas).map fun m =>
      (([1, m.t - 25], gammaEst m (fin α) (fin IL) (fin I0) (fin ref) (fin r0) (fin 5.5) (fin Rs) (fin Ns) (fin Eg)) : List Fl × Fl)) =
      liftEqs (rows.map fun r => ([1, r.t - 25], γ + μ * (r.t - 25))) := by
    unfold liftEqs
    rw [List.map_map, List.map_map]
    refine List.map_congr_left fun r hr => ?_
    simp only [Function.comp_apply]
    rw [est r hr]
    simp only [Row.meas, e25, fin_sub, one_eq, List.map_cons, List.map_nil]
  unfold fitGammaPost
  dsimp only
  rw [e, lstsq_recovers hl 2 _ (by
      intro h
      rw [List.map_eq_nil_iff] at h
      rw [h] at hr1
      simp at hr1) (by
      intro e he
      obtain ⟨r, -, rfl⟩ := List.mem_map.mp he
      rfl) [γ, μ] rfl (by
      intro e he
      obtain ⟨r, hr, rfl⟩ := List.mem_map.mp he
      simp only [List.zipWith_cons_cons, List.zipWith_nil_left, List.sum_cons, List.sum_nil]
      ring) (by
      rw [List.map_map]
      have := det_two (l := rows.map fun r => r.t - 25) ⟨_, List.mem_map_of_mem hr1, _, List.mem_map_of_mem hr2, fun h => hne (by linarith)⟩
      rwa [List.map_map] at this)]
  rfl

/-! ### The whole fit -/

/-- Points within the tolerances of 1000 W/m² (and 25 degrees). -/
def Near (gtol : ℝ) (r : Row) : Prop := |r.g - 1000| ≤ gtol
def NearStc (gtol ttol : ℝ) (r : Row) : Prop := |r.g - 1000| ≤ gtol ∧ |r.t - 25| ≤ ttol

private theorem close_iff (x ref tol : ℝ) : isClose (fin x) (fin ref) (fin tol) ↔ |x - ref| ≤ tol := by
  unfold isClose
  rw [fin_sub, abs_fin, fin_le]

private theorem filter_meas (rows : List Row) (p : Meas → Prop) (q : Row → Prop) (h : ∀ r, p r.meas ↔ q r) :
    (rows.map Row.meas).filter p = (rows.filter q).map Row.meas := by
  rw [List.filter_map]
  congr 1
  refine List.filter_congr fun r _ => ?_
  simp only [Function.comp_apply]
  exact decide_eq_decide.mpr (h r)

/-- **C151, when it raises.**  ValueError exactly if: `alpha_sc` is not given and not exactly one point is within the tolerances of
1000 W/m² and 25 degrees; or `beta_mp` is not given and no point is near 1000 W/m²; or no point reaches the minimum irradiance of the shunt
fit.  Nothing else is raised.  What is given of `alpha_sc` and `R_s` comes back unchanged, and `R_sh_exp` is 5.5. -/
theorem iec_outcome (lib : Sde.LinLib) (rows : List Row) (Ns Eg : Fl) (α β Rs : Option Fl) (coeff : Fl) (gmin : Option ℝ) (gtol ttol : ℝ) :
    (∀ e, fitIec lib (rows.map Row.meas) Ns Eg α β Rs coeff (gmin.map fin) (fin gtol) (fin ttol) = .error e → e = .valueError) ∧
    (fitIec lib (rows.map Row.meas) Ns Eg α β Rs coeff (gmin.map fin) (fin gtol) (fin ttol) = .error .valueError ↔
      (α = none ∧ (rows.filter (NearStc gtol ttol)).length ≠ 1) ∨ (β = none ∧ ∀ r ∈ rows, ¬ Near gtol r) ∨
      ∀ r ∈ rows, r.g < gmin.getD 0) ∧
    (∀ m, fitIec lib (rows.map Row.meas) Ns Eg α β Rs coeff (gmin.map fin) (fin gtol) (fin ttol) = .ok m →
      (∀ x, α = some x → m.alpha_sc = x) ∧ (∀ x, Rs = some x → m.R_s = x) ∧ m.R_sh_exp = fin 5.5 ∧ m.cells_in_series = Ns ∧
      m.EgRef = Eg ∧
      (α = none → ∃ r, rows.filter (NearStc gtol ttol) = [r] ∧
        m.alpha_sc = fitTempco lib (lift ((rows.filter (Near gtol)).map fun r => (r.t, r.isc))) * fin r.isc)) := by
  have f1 : (rows.map Row.meas).filter (fun m => isClose m.g 1000 (fin gtol)) = (rows.filter (Near gtol)).map Row.meas :=
    filter_meas _ _ _ fun r => by rw [e1000]; exact close_iff _ _ _
  have f2 : ((rows.map Row.meas).filter (fun m => isClose m.g 1000 (fin gtol))).filter (fun m => isClose m.t 25 (fin ttol)) =
      (rows.filter (NearStc gtol ttol)).map Row.meas := by
    rw [f1, filter_meas _ _ (fun r => |r.t - 25| ≤ ttol) fun r => by rw [e25]; exact close_iff _ _ _, List.filter_filter]
    congr 1
    refine List.filter_congr fun r _ => ?_
    simp only [NearStc, Near]
    by_cases h1 : |r.g - 1000| ≤ gtol <;> by_cases h2 : |r.t - 25| ≤ ttol <;> simp [h1, h2]
  have f3 : (rows.map Row.meas).filter (fun m => (gmin.map fin).getD 0 ≤ m.g) = (rows.filter fun r => gmin.getD 0 ≤ r.g).map Row.meas := by
    refine filter_meas _ _ _ fun r => ?_
    cases gmin with
    | none => simp only [Option.map_none, Option.getD_none]; rw [zero_eq]; exact Iff.of_eq fin_le
    | some x => exact Iff.of_eq fin_le
  have f4 : ((rows.filter (Near gtol)).map Row.meas).map (fun m => (m.t, m.i_sc)) =
      lift ((rows.filter (Near gtol)).map fun r => (r.t, r.isc)) := by
    unfold lift; rw [List.map_map, List.map_map]; rfl
  have g3 : (rows.filter fun r => gmin.getD 0 ≤ r.g).map Row.meas = [] ↔ ∀ r ∈ rows, r.g < gmin.getD 0 := by
    rw [List.map_eq_nil_iff, List.filter_eq_nil_iff]; simp
  have g1 : (rows.filter (Near gtol)).map Row.meas = [] ↔ ∀ r ∈ rows, ¬ Near gtol r := by
    rw [List.map_eq_nil_iff, List.filter_eq_nil_iff]; simp
  unfold fitIec
  dsimp only
  rw [f2, f3, f1, f4]
  cases α with
  | some a =>
    dsimp only
    by_cases hc : (β = none ∧ (rows.filter (Near gtol)).map Row.meas = []) ∨ (rows.filter fun r => gmin.getD 0 ≤ r.g).map Row.meas = []
    · rw [if_pos hc]
      rw [g1, g3] at hc
      refine ⟨by simp [eq_comm], ?_, by simp⟩
      simpa using hc
    · rw [if_neg hc]
      rw [g1, g3] at hc
      refine ⟨by simp, ?_, ?_⟩
      · simp only [reduceCtorEq, false_iff, false_and, false_or]
        exact hc
      · intro m hm
        simp only [Except.ok.injEq] at hm
        subst hm
        refine ⟨by simp, ?_, rfl, rfl, rfl, by simp⟩
        intro x hx
        subst hx
        rfl
  | none =>
    generalize hs : rows.filter (NearStc gtol ttol) = stc
    rcases stc with _ | ⟨r, _ | ⟨r2, l⟩⟩
    · simp only [List.map_cons, List.map_nil]
      refine ⟨?_, by simp, by simp⟩
      intro e h
      simpa [eq_comm] using h
    · simp only [List.map_cons, List.map_nil]
      by_cases hc : (β = none ∧ (rows.filter (Near gtol)).map Row.meas = []) ∨ (rows.filter fun r => gmin.getD 0 ≤ r.g).map Row.meas = []
      · rw [if_pos hc]
        rw [g1, g3] at hc
        refine ⟨by simp [eq_comm], ?_, by simp⟩
        simpa using hc
      · rw [if_neg hc]
        rw [g1, g3] at hc
        refine ⟨by simp, ?_, ?_⟩
        · simp only [reduceCtorEq, false_iff, List.length_cons, List.length_nil, zero_add, ne_eq, not_true_eq_false, and_false, false_or]
          exact hc
        · intro m hm
          simp only [Except.ok.injEq] at hm
          subst hm
          refine ⟨by simp, ?_, rfl, rfl, rfl, fun _ => ⟨r, rfl, rfl⟩⟩
          intro x hx
          subst hx
          rfl
    · simp only [List.map_cons, List.map_nil]
      refine ⟨?_, by simp, by simp⟩
      intro e h
      simpa [eq_comm] using h

/-- **C151, which points serve which step.**  When nothing is raised: shunt resistances, series resistance, saturation current,
light current and the final diode factors use all points, each step with the results of the steps before; the first diode factor uses
only the points within the tolerance of 25 degrees, and `beta_mp`, if not given, only those near 1000 W/m². -/
theorem iec_steps (lib : Sde.LinLib) (rows : List Row) (Ns Eg : Fl) (α β Rs : Option Fl) (coeff : Fl) (gmin : Option ℝ) (gtol ttol : ℝ)
    (m : PvsystModule)
    (h : fitIec lib (rows.map Row.meas) Ns Eg α β Rs coeff (gmin.map fin) (fin gtol) (fin ttol) = .ok m) :
    (m.R_sh_ref, m.R_sh_0) = fitShunt lib (rows.map Row.meas)
      (β.getD (fitTempco lib (((rows.filter (Near gtol)).map Row.meas).map fun m => (m.t, m.v_mp)))) coeff ((gmin.map fin).getD 0) ∧
    (Rs = none → m.R_s = fitSeries lib (rows.map Row.meas)) ∧
    ∃ γ, γ = fitGamma lib ((rows.filter fun r => |r.t - 25| ≤ ttol).map Row.meas) m.R_sh_ref m.R_sh_0 (fin 5.5) m.R_s Ns ∧
      m.I_o_ref = fitSaturation (rows.map Row.meas) γ 0 m.R_sh_ref m.R_sh_0 (fin 5.5) m.R_s Ns Eg ∧
      m.I_L_ref = fitPhotocurrent lib (rows.map Row.meas) m.alpha_sc γ 0 m.I_o_ref m.R_sh_ref m.R_sh_0 (fin 5.5) m.R_s Ns Eg ∧
      (m.gamma_ref, m.mu_gamma) =
        fitGammaPost lib (rows.map Row.meas) m.alpha_sc m.I_L_ref m.I_o_ref m.R_sh_ref m.R_sh_0 (fin 5.5) m.R_s Ns Eg := by
  have f1 : (rows.map Row.meas).filter (fun m => isClose m.g 1000 (fin gtol)) = (rows.filter (Near gtol)).map Row.meas :=
    filter_meas _ _ _ fun r => by rw [e1000]; exact close_iff _ _ _
  have f2 : (rows.map Row.meas).filter (fun m => isClose m.t 25 (fin ttol)) =
      (rows.filter fun r => |r.t - 25| ≤ ttol).map Row.meas :=
    filter_meas _ _ _ fun r => by rw [e25]; exact close_iff _ _ _
  unfold fitIec at h
  dsimp only at h
  split at h
  · cases h
  · split_ifs at h
    rw [f1, f2] at h
    obtain rfl := (Except.ok.inj h).symm
    exact ⟨rfl, fun h => by subst h; rfl, _, rfl, rfl, rfl, rfl⟩

/-! ### Measurements that meet the hypotheses -/

private theorem shunt_const (g : ℝ) {r : ℝ} (hr : 0 ≤ r) : shunt g r r = r := by
  have hlt : Real.exp (-5.5) < 1 := by rw [Real.exp_lt_one_iff]; norm_num
  unfold shunt
  rw [show r - r * Real.exp (-5.5) = r * (1 - Real.exp (-5.5)) by ring, mul_div_cancel_right₀ _ (by linarith), max_eq_right hr]
  ring

/-- Two measurements at two temperatures. -/
private def two (f : ℝ → ℝ × ℝ × ℝ × ℝ × ℝ) : List Row :=
  [25, 50].map fun t => ⟨(f t).1, t, (f t).2.1, (f t).2.2.1, (f t).2.2.2.1, (f t).2.2.2.2⟩

private theorem kel_pos {t : ℝ} (h : t = 25 ∨ t = 50) : 0 < kel t := by unfold kel; rcases h with rfl | rfl <;> norm_num

private theorem nsvth_pos {t : ℝ} (h : t = 25 ∨ t = 50) : 0 < nsvth 60 t := by
  have := kel_pos h
  have h1 : 0 < kB := by unfold kB; norm_num
  have h2 : 0 < qe := by unfold qe; norm_num
  unfold nsvth; positivity

/-- The hypotheses of `gamma_exact`: any open-circuit voltage and internal voltage at the maximum power point. -/
example : ∃ (rows : List Row) (IL : Row → ℝ), rows ≠ [] ∧
    (∀ r ∈ rows, 0 < kel r.t ∧ shunt r.g 200 200 ≠ 0 ∧ (0 : ℝ) < 1e-9) ∧
    (∀ r ∈ rows, r.isc = IL r - r.isc * 0.3 / shunt r.g 200 200) ∧
    (∀ r ∈ rows, 0 = IL r - 1e-9 * Real.exp (r.voc / (1.1 * nsvth 60 r.t)) - r.voc / shunt r.g 200 200) ∧
    (∀ r ∈ rows, r.imp = IL r - 1e-9 * Real.exp ((r.vmp + r.imp * 0.3) / (1.1 * nsvth 60 r.t)) -
      (r.vmp + r.imp * 0.3) / shunt r.g 200 200) ∧
    ∃ r ∈ rows, r.vmp + r.imp * 0.3 ≠ r.voc := by
  set L : ℝ → ℝ := fun t => 1e-9 * Real.exp (37 / (1.1 * nsvth 60 t)) + 37 / 200
  set M : ℝ → ℝ := fun t => L t - 1e-9 * Real.exp (30 / (1.1 * nsvth 60 t)) - 30 / 200 with hM
  refine ⟨two fun t => (1000, L t / (1 + 0.3 / 200), 37, M t, 30 - M t * 0.3), fun r => L r.t, by simp [two], ?_, ?_, ?_, ?_, ?_⟩
  · intro r hr
    simp only [two, List.map_cons, List.map_nil, List.mem_cons, List.not_mem_nil, or_false] at hr
    rw [shunt_const _ (by norm_num)]
    exact ⟨kel_pos (by rcases hr with rfl | rfl <;> simp), by norm_num, by norm_num⟩
  all_goals simp only [two, List.map_cons, List.map_nil, List.mem_cons, List.not_mem_nil, or_false, forall_eq_or_imp, forall_eq,
    exists_eq_or_imp, exists_eq_left, shunt_const _ (show (0 : ℝ) ≤ 200 by norm_num)]
  · constructor <;> ring
  · simp only [L]; constructor <;> ring
  · simp only [sub_add_cancel]; simp only [hM]; exact ⟨trivial, trivial⟩
  · simp only [sub_add_cancel]; norm_num

/-- The hypotheses of `saturation_exact` and of `photocurrent_exact`. -/
example : ∃ rows : List Row, rows ≠ [] ∧ (∃ r ∈ rows, r.g ≠ 0) ∧
    (∀ r ∈ rows, 0 < kel r.t ∧ shunt r.g 200 200 ≠ 0 ∧ (1.1 : ℝ) + 0 * (r.t - 25) ≠ 0 ∧ nsvth 60 r.t ≠ 0 ∧ r.voc ≠ 0) ∧
    (∀ r ∈ rows, 0 = r.isc * (1 + 0.3 / shunt r.g 200 200) - sat 1e-9 1.121 (1.1 + 0 * (r.t - 25)) r.t *
      (Real.exp (r.voc / ((1.1 + 0 * (r.t - 25)) * nsvth 60 r.t)) - 1) - r.voc / shunt r.g 200 200) ∧
    (∀ r ∈ rows, r.isc = r.g / 1000 * (8 + 0.003 * (r.t - 25)) - sat 1e-9 1.121 (1.1 + 0 * (r.t - 25)) r.t *
      (Real.exp (r.isc * 0.3 / ((1.1 + 0 * (r.t - 25)) * nsvth 60 r.t)) - 1) - r.isc * 0.3 / shunt r.g 200 200) := by
  set S : ℝ → ℝ := fun t => sat 1e-9 1.121 (1.1 + 0 * (t - 25)) t with hS
  set I : ℝ → ℝ := fun t => (S t * (Real.exp (37 / ((1.1 + 0 * (t - 25)) * nsvth 60 t)) - 1) + 37 / 200) / (1 + 0.3 / 200) with hI
  set G : ℝ → ℝ := fun t => 1000 * (I t + S t * (Real.exp (I t * 0.3 / ((1.1 + 0 * (t - 25)) * nsvth 60 t)) - 1) + I t * 0.3 / 200) /
    (8 + 0.003 * (t - 25)) with hG
  have hSp : ∀ t, t = 25 ∨ t = 50 → 0 < S t := by
    intro t ht
    have := kel_pos ht
    simp only [hS]; unfold sat; positivity
  have hIp : ∀ t, t = 25 ∨ t = 50 → 0 < I t := by
    intro t ht
    have h1 := hSp t ht
    have h2 := nsvth_pos ht
    have : 0 < Real.exp (37 / ((1.1 + 0 * (t - 25)) * nsvth 60 t)) - 1 := by
      rw [sub_pos, Real.one_lt_exp_iff]; simp only [zero_mul, add_zero]; positivity
    simp only [hI]; positivity
  refine ⟨two fun t => (G t, I t, 37, 0, 0), by simp [two], ?_, ?_, ?_, ?_⟩
  · refine ⟨⟨G 25, 25, I 25, 37, 0, 0⟩, by simp [two], ?_⟩
    have h1 := hSp 25 (.inl rfl)
    have h2 := hIp 25 (.inl rfl)
    have h3 := nsvth_pos (t := 25) (.inl rfl)
    have : 0 < Real.exp (I 25 * 0.3 / ((1.1 + 0 * (25 - 25)) * nsvth 60 25)) - 1 := by
      rw [sub_pos, Real.one_lt_exp_iff]; simp only [zero_mul, add_zero]; positivity
    have : 0 < G 25 := by
      have e : G 25 = 1000 * (I 25 + S 25 * (Real.exp (I 25 * 0.3 / ((1.1 + 0 * (25 - 25)) * nsvth 60 25)) - 1) + I 25 * 0.3 / 200) /
        (8 + 0.003 * (25 - 25)) := rfl
      rw [e, sub_self, mul_zero, mul_zero]
      rw [sub_self, mul_zero] at this
      positivity
    exact this.ne'
  · intro r hr
    simp only [two, List.map_cons, List.map_nil, List.mem_cons, List.not_mem_nil, or_false] at hr
    have ht : r.t = 25 ∨ r.t = 50 := by rcases hr with rfl | rfl <;> simp
    rw [shunt_const _ (by norm_num)]
    refine ⟨kel_pos ht, by norm_num, by norm_num, (nsvth_pos ht).ne', ?_⟩
    rcases hr with rfl | rfl <;> norm_num
  all_goals simp only [two, List.map_cons, List.map_nil, List.mem_cons, List.not_mem_nil, or_false, forall_eq_or_imp, forall_eq,
    shunt_const _ (show (0 : ℝ) ≤ 200 by norm_num)]
  · have key : ∀ t, I t * (1 + 0.3 / 200) = S t * (Real.exp (37 / ((1.1 + 0 * (t - 25)) * nsvth 60 t)) - 1) + 37 / 200 :=
      fun t => div_mul_cancel₀ _ (by norm_num)
    rw [key, key]
    constructor <;> simp only [hS] <;> ring
  · have key : ∀ t, t = 25 ∨ t = 50 → G t / 1000 * (8 + 0.003 * (t - 25)) =
        I t + S t * (Real.exp (I t * 0.3 / ((1.1 + 0 * (t - 25)) * nsvth 60 t)) - 1) + I t * 0.3 / 200 := by
      intro t ht
      have : (8 + 0.003 * (t - 25) : ℝ) ≠ 0 := by rcases ht with rfl | rfl <;> norm_num
      simp only [hG]
      generalize I t + S t * (Real.exp (I t * 0.3 / ((1.1 + 0 * (t - 25)) * nsvth 60 t)) - 1) + I t * 0.3 / 200 = z
      field_simp
    rw [key 25 (.inl rfl), key 50 (.inr rfl)]
    constructor <;> ring

/-- The hypotheses of `gamma_post_exact`. -/
example : ∃ rows : List Row,
    (∀ r ∈ rows, r.imp = r.g / 1000 * (8 + 0.003 * (r.t - 25)) - sat 1e-9 1.121 (1.1 + 0 * (r.t - 25)) r.t *
      Real.exp ((r.vmp + r.imp * 0.3) / ((1.1 + 0 * (r.t - 25)) * nsvth 60 r.t)) - (r.vmp + r.imp * 0.3) / shunt r.g 200 200) ∧
    (∀ r ∈ rows, qe * 1.121 / kB * (1 / 298.15 - 1 / kel r.t) + (r.vmp + r.imp * 0.3) / nsvth 60 r.t ≠ 0) ∧
    ∃ r ∈ rows, ∃ s ∈ rows, r.t ≠ s.t := by
  set M : ℝ → ℝ := fun t => 1000 / 1000 * (8 + 0.003 * (t - 25)) - sat 1e-9 1.121 (1.1 + 0 * (t - 25)) t *
      Real.exp (30 / ((1.1 + 0 * (t - 25)) * nsvth 60 t)) - 30 / 200 with hM
  refine ⟨two fun t => (1000, 0, 0, M t, 30 - M t * 0.3), ?_, ?_, ?_⟩
  all_goals simp only [two, List.map_cons, List.map_nil, List.mem_cons, List.not_mem_nil, or_false, forall_eq_or_imp, forall_eq,
    exists_eq_or_imp, exists_eq_left, shunt_const _ (show (0 : ℝ) ≤ 200 by norm_num), sub_add_cancel]
  · exact ⟨rfl, rfl⟩
  · have h1 : 0 < kB := by unfold kB; norm_num
    have h2 : 0 < qe := by unfold qe; norm_num
    have h3 := nsvth_pos (t := 25) (.inl rfl)
    have h4 := nsvth_pos (t := 50) (.inr rfl)
    have k1 : 0 ≤ (1 : ℝ) / 298.15 - 1 / kel 25 := by unfold kel; norm_num
    have k2 : 0 ≤ (1 : ℝ) / 298.15 - 1 / kel 50 := by unfold kel; norm_num
    constructor <;> positivity
  · norm_num

end Pvlib.Props.SdmIec
end
