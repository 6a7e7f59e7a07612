import Verif.Model.SdmSandia
import Verif.Props.SandiaSimple
import Verif.Props.SdmSteps

/-! # Property C148: parameter extraction of the Sandia fits

What `_extract_sdm_params` returns when the curves follow the De Soto or the PVsyst model exactly. -/

noncomputable section
open scoped Classical
namespace Pvlib.Props.SdmExtract
open Fl Pvlib.PvFunctions Pvlib.Sdm Pvlib.Props.SandiaSimple

/-- What is assumed of `sm.RLM(y, sm.add_constant(x)).fit().params`: points on a line, at two abscissae or more, give that line
(the residuals of the initial least squares are 0, and the iteration stops there); if all abscissae are one number other than 0,
`add_constant` adds no column and there is one parameter. -/
structure GoodRlm (fl : FitLib) : Prop where
  line : ∀ (pts : List (ℝ × ℝ)) (a b : ℝ), (∀ p ∈ pts, p.2 = a + b * p.1) → (∃ p ∈ pts, ∃ q ∈ pts, p.1 ≠ q.1) →
    fl.rlm (pts.map fun p => (fin p.1, fin p.2)) = [fin a, fin b]
  const : ∀ (pts : List (ℝ × ℝ)) (x : ℝ), pts ≠ [] → x ≠ 0 → (∀ p ∈ pts, p.1 = x) →
    (fl.rlm (pts.map fun p => (fin p.1, fin p.2))).length = 1

private theorem lift_inj : Function.Injective fun p : ℝ × ℝ => (fin p.1, fin p.2) := by
  rintro ⟨a, b⟩ ⟨c, d⟩ h
  simpa using h

/-- Such a library exists. -/
theorem goodRlm_exists (lsq : (Fl × Fl → List Fl) → Fl × Fl → Except PyErr (Fl × Fl)) :
    ∃ fl : FitLib, GoodRlm fl ∧ fl.boundedLsq = lsq := by
  let P : List (Fl × Fl) → ℝ × ℝ → Prop := fun l c => ∃ pts : List (ℝ × ℝ), l = pts.map (fun p => (fin p.1, fin p.2)) ∧
    (∀ p ∈ pts, p.2 = c.1 + c.2 * p.1) ∧ ∃ p ∈ pts, ∃ q ∈ pts, p.1 ≠ q.1
  refine ⟨⟨fun l => if h : ∃ c, P l c then [fin (Classical.choose h).1, fin (Classical.choose h).2] else [nan], lsq⟩, ⟨?_, ?_⟩, rfl⟩
  · intro pts a b hl hd
    have h : ∃ c, P (pts.map fun p => (fin p.1, fin p.2)) c := ⟨(a, b), pts, rfl, hl, hd⟩
    dsimp only
    rw [dif_pos h]
    obtain ⟨pts', e, hl', -⟩ := Classical.choose_spec h
    have : pts = pts' := (List.map_injective_iff.mpr lift_inj) e
    subst this
    obtain ⟨p, hp, q, hq, hpq⟩ := hd
    generalize Classical.choose h = c at hl' ⊢
    have e1 := hl p hp; have e2 := hl q hq; have e3 := hl' p hp; have e4 := hl' q hq
    have hb : c.2 = b := by
      have : (c.2 - b) * (p.1 - q.1) = 0 := by linarith
      rcases mul_eq_zero.mp this with h | h
      · linarith
      · exact absurd (by linarith) hpq
    have ha : c.1 = a := by rw [hb] at e3; linarith
    rw [ha, hb]
  · intro pts x _ _ hx
    dsimp only
    rw [dif_neg]
    · rfl
    · rintro ⟨c, pts', e, -, p, hp, q, hq, hpq⟩
      have : pts = pts' := (List.map_injective_iff.mpr lift_inj) e
      subst this
      exact hpq (by rw [hx p hp, hx q hq])

theorem meanOf_const {l : List Fl} {x : ℝ} (h0 : l ≠ []) (h : ∀ y ∈ l, y = fin x) : meanOf l = fin x := by
  have e : l = (List.replicate l.length x).map fin := by
    rw [List.map_replicate]; exact List.eq_replicate_iff.mpr ⟨rfl, h⟩
  have hl : (l.length : ℝ) ≠ 0 := by
    simpa using h0
  unfold meanOf
  rw [e, sum_fin]
  simp only [List.sum_replicate, List.length_map, List.length_replicate, nsmul_eq_mul]
  rw [fin_div hl, fin_inj]
  field_simp

private theorem mem_sel {n k : ℕ} {p : ℕ → Prop} : k ∈ sel n p ↔ k < n ∧ p k := by
  simp [sel]

private theorem sel_all {n : ℕ} {p : ℕ → Prop} (h : ∀ k < n, p k) : sel n p = List.range n := by
  unfold sel
  rw [List.filter_eq_self]
  intro k hk
  simpa using h k (List.mem_range.mp hk)

/-- A kept curve. -/
def Kept (c : Curves) (s : State) (k : ℕ) : Prop := k < c.n ∧ s.u k

/-- Kelvin. -/
abbrev kel (t : ℝ) : ℝ := t + 273.15

/-- The curves are those of a De Soto module with the default temperature coefficient of the band gap, at irradiances `E` and
temperatures `T`. -/
structure Desoto (c : Curves) (s : State) (tc : Series) (E T : ℕ → ℝ) (α aref IL I0 Rsh Rs Eg : ℝ) : Prop where
  ee : ∀ k, Kept c s k → c.ee k = fin (E k) ∧ 0 < E k
  tc : ∀ k, Kept c s k → tc k = fin (T k) ∧ 0 < kel (T k)
  five : ∀ k, Kept c s k → (⟨s.iph k, s.io k, s.rs k, s.rsh k, c.nnsvth k⟩ : Five) =
    calcparamsDesoto (fin (E k)) (fin (T k)) (fin α) (fin aref) (fin IL) (fin I0) (fin Rsh) (fin Rs) (fin Eg)
  pos : 0 < I0

/-- The factor on the band gap. -/
def egFactor : ℝ := (kB / qe / kEV) * ((1 + 0.0002677 * 298.15) / (1 - 0.0002677 * 298.15))

private theorem log_io_desoto {T Eg I0 : ℝ} (hT : 0 < kel T) (hI : 0 < I0) :
    Real.log (I0 * (kel T / 298.15) ^ 3 * Real.exp (Eg / (kEV * 298.15) - Eg * (1 + -0.0002677 * (kel T - 298.15)) / (kEV * kel T))) -
      3 * Real.log (kel T / 298.15) =
    Real.log I0 + Eg * egFactor * (qe / kB * (1 / 298.15 - 1 / kel T + -0.0002677 * (T - 25) / kel T)) := by
  have h1 : 0 < kel T / 298.15 := div_pos hT (by norm_num)
  rw [Real.log_mul (by positivity) (Real.exp_ne_zero _), Real.log_mul hI.ne' (by positivity), Real.log_pow, Real.log_exp]
  have hk : kEV ≠ 0 := by unfold kEV; norm_num
  have hq : qe ≠ 0 := by unfold qe; norm_num
  have hb : kB ≠ 0 := by unfold kB; norm_num
  have hT' : T - 25 = kel T - 298.15 := by unfold kel; norm_num; ring
  rw [hT']
  unfold egFactor
  generalize kel T = K at hT ⊢
  have hK := hT.ne'
  push_cast
  have hd : (1 - 0.0002677 * 298.15 : ℝ) ≠ 0 := by norm_num
  field_simp
  ring

/-- **C148, De Soto.**  From curves that follow the De Soto model exactly, at two temperatures and two irradiances above 400 W/m²
or more, the light current, saturation current and both resistances come out exactly; the band gap comes out multiplied by
`egFactor`. -/
theorem desoto_extraction {fl : FitLib} (hf : GoodRlm fl) {c : Curves} {s : State} {tc : Series} {E T : ℕ → ℝ}
    {α aref IL I0 Rsh Rs Eg : ℝ} (h : Desoto c s tc E T α aref IL I0 Rsh Rs Eg)
    (hT : ∃ i j, Kept c s i ∧ Kept c s j ∧ T i ≠ T j)
    (hE : ∃ i j, Kept c s i ∧ Kept c s j ∧ 400 < E i ∧ 400 < E j ∧ E i ≠ E j) :
    extractDesoto fl c constants tc (fin α) s = .ok ⟨fin IL, fin I0, fin (Eg * egFactor), fin Rsh, fin Rs⟩ := by
  have h273 : (25 : ℝ) + 273.15 = 298.15 := by norm_num
  -- the five parameters of a kept curve, as reals
  have par : ∀ k, Kept c s k → s.iph k = fin (E k / 1000 * (IL + α * (kel (T k) - 298.15))) ∧
      s.io k = fin (I0 * (kel (T k) / 298.15) ^ 3 *
        Real.exp (Eg / (kEV * 298.15) - Eg * (1 + -0.0002677 * (kel (T k) - 298.15)) / (kEV * kel (T k)))) ∧
      s.rs k = fin Rs ∧ s.rsh k = fin (Rsh * (1000 / E k)) := by
    intro k hk
    have hfive := h.five k hk
    have hE0 := (h.ee k hk).2.ne'
    have hT0 := (h.tc k hk).2.ne'
    have hkev : kEV ≠ 0 := by unfold kEV; norm_num
    simp only [calcparamsDesoto, Five.mk.injEq] at hfive
    obtain ⟨h1, h2, h3, h4, -⟩ := hfive
    have e1000 : (1000 : Fl) = fin 1000 := ofNat_eq
    have e25 : (25 : Fl) = fin 25 := ofNat_eq
    simp only [e1000, e25, one_eq, fin_add, fin_sub, fin_mul, h273] at h1 h2 h4
    rw [fin_div (by norm_num), fin_mul] at h1
    rw [fin_div (by norm_num), fin_pow, fin_mul, fin_div (mul_ne_zero hkev (by norm_num)), fin_div (mul_ne_zero hkev hT0), fin_sub, exp_fin,
      fin_mul] at h2
    rw [fin_div hE0, fin_mul] at h4
    exact ⟨h1, h2, h3, h4⟩
  have e400 : (400 : Fl) = fin 400 := ofNat_eq
  have c1 : constants.E0 = fin 1000 := ofNat_eq
  have c2 : constants.T0 = fin 25 := ofNat_eq
  obtain ⟨i, j, hi, hj, hi4, hj4, hij⟩ := hE
  -- shunt resistance
  have hr : fl.rlm ((sel c.n fun k => s.u k ∧ 400 < c.ee k).map fun k => (constants.E0 / c.ee k, s.rsh k)) = [fin 0, fin Rsh] := by
    have e : ((sel c.n fun k => s.u k ∧ 400 < c.ee k).map fun k => (constants.E0 / c.ee k, s.rsh k)) =
        ((sel c.n fun k => s.u k ∧ 400 < c.ee k).map fun k => (1000 / E k, Rsh * (1000 / E k))).map
          fun p => (fin p.1, fin p.2) := by
      rw [List.map_map]
      refine List.map_congr_left fun k hk => ?_
      obtain ⟨k1, k2, k3⟩ := mem_sel.mp hk
      have hK : Kept c s k := ⟨k1, k2⟩
      rw [c1, (h.ee k hK).1, fin_div (h.ee k hK).2.ne', (par k hK).2.2.2]
      rfl
    rw [e]
    refine hf.line _ 0 Rsh ?_ ?_
    · intro p hp
      obtain ⟨k, -, rfl⟩ := List.mem_map.mp hp
      simp
    · refine ⟨_, List.mem_map_of_mem (mem_sel.mpr ⟨hi.1, hi.2, ?_⟩), _, List.mem_map_of_mem (mem_sel.mpr ⟨hj.1, hj.2, ?_⟩), ?_⟩
      · rw [(h.ee i hi).1, e400]; exact hi4
      · rw [(h.ee j hj).1, e400]; exact hj4
      · intro he
        have := (h.ee i hi).2; have := (h.ee j hj).2
        simp only at he
        rw [div_eq_div_iff (by positivity) (by positivity)] at he
        exact hij (by linarith)
  -- saturation current
  have hio : fitIo fl c constants tc (xDesoto constants tc) s = .ok (fin I0, fin (Eg * egFactor)) := by
    have e : ((sel c.n s.u).map fun k => (xDesoto constants tc k, Fl.log (s.io k) - 3 * Fl.log ((tc k + fin 273.15) / (constants.T0 + fin 273.15)))) =
        ((sel c.n s.u).map fun k => (qe / kB * (1 / 298.15 - 1 / kel (T k) + -0.0002677 * (T k - 25) / kel (T k)),
          Real.log I0 + Eg * egFactor * (qe / kB * (1 / 298.15 - 1 / kel (T k) + -0.0002677 * (T k - 25) / kel (T k))))).map
          fun p => (fin p.1, fin p.2) := by
      rw [List.map_map]
      refine List.map_congr_left fun k hk => ?_
      have hK : Kept c s k := mem_sel.mp hk
      obtain ⟨t1, t2⟩ := h.tc k hK
      have hp : 0 < kel (T k) / 298.15 := div_pos t2 (by norm_num)
      have hb : kB ≠ 0 := by unfold kB; norm_num
      have e3 : (3 : Fl) = fin 3 := ofNat_eq
      have d1 : xDesoto constants tc k =
          fin (qe / kB * (1 / 298.15 - 1 / kel (T k) + -0.0002677 * (T k - 25) / kel (T k))) := by
        unfold xDesoto
        dsimp only
        rw [c2, t1]
        change fin qe / fin kB * _ = _
        simp only [fin_add, fin_sub, fin_mul, h273, one_eq]
        rw [fin_div hb, fin_div (by norm_num), fin_div t2.ne', fin_div t2.ne', fin_sub, fin_add, fin_mul]
      have d2 : Fl.log (s.io k) - 3 * Fl.log ((tc k + fin 273.15) / (constants.T0 + fin 273.15)) =
          fin (Real.log I0 + Eg * egFactor * (qe / kB * (1 / 298.15 - 1 / kel (T k) + -0.0002677 * (T k - 25) / kel (T k)))) := by
        rw [(par k hK).2.1, c2, t1]
        have hI := h.pos
        simp only [fin_add, h273]
        rw [fin_div (by norm_num), log_fin (by positivity), log_fin hp, e3, fin_mul, fin_sub, fin_inj]
        exact log_io_desoto t2 h.pos
      simp only [Function.comp_apply]
      rw [d1, d2]
    unfold fitIo
    dsimp only
    rw [e, hf.line _ (Real.log I0) (Eg * egFactor)]
    · simp only [exp_fin, Real.exp_log h.pos]
    · intro p hp
      obtain ⟨k, -, rfl⟩ := List.mem_map.mp hp
      rfl
    · obtain ⟨i, j, hi, hj, hT⟩ := hT
      refine ⟨_, List.mem_map_of_mem (mem_sel.mpr hi), _, List.mem_map_of_mem (mem_sel.mpr hj), ?_⟩
      have hq : qe / kB ≠ 0 := by unfold qe kB; norm_num
      have t1 := (h.tc i hi).2; have t2 := (h.tc j hj).2
      intro he
      simp only at he
      have he := mul_left_cancel₀ hq he
      have hx : ∀ t : ℝ, 0 < kel t → (1 / 298.15 - 1 / kel t + -0.0002677 * (t - 25) / kel t : ℝ) =
          (1 / 298.15 - 0.0002677) + (0.0002677 * 298.15 - 1) / kel t := by
        intro t ht
        have : t = kel t - 273.15 := by unfold kel; ring
        rw [this, show kel (kel t - 273.15) = kel t by unfold kel; ring]
        have := ht.ne'
        field_simp
        ring
      rw [hx _ t1, hx _ t2] at he
      have he := add_left_cancel he
      rw [div_eq_div_iff t1.ne' t2.ne'] at he
      have := mul_left_cancel₀ (by norm_num) he
      exact hT (by unfold kel at this; linarith)
  -- light current, series resistance
  have hil : fitIL c constants tc (fin α) s = fin IL := by
    unfold fitIL
    have hv : ∀ k ∈ sel c.n s.u, s.iph k * (constants.E0 / c.ee k) - fin α * (tc k - constants.T0) = fin IL := by
      intro k hk
      have hK : Kept c s k := mem_sel.mp hk
      have hE0 := (h.ee k hK).2.ne'
      rw [c1, c2, (h.ee k hK).1, (h.tc k hK).1, (par k hK).1, fin_div hE0, fin_mul, fin_sub, fin_mul, fin_sub, fin_inj]
      field_simp
      norm_num; ring
    refine meanOf_const ?_ ?_
    · intro he
      rw [List.filter_eq_nil_iff] at he
      have := he _ (List.mem_map_of_mem (mem_sel.mpr hi))
      rw [hv i (mem_sel.mpr hi)] at this
      simp at this
    · intro y hy
      obtain ⟨k, hk, rfl⟩ := List.mem_map.mp (List.mem_filter.mp hy).1
      exact hv k hk
  have hrs : fitRs c s = fin Rs := by
    unfold fitRs
    refine meanOf_const ?_ ?_
    · intro he
      rw [List.map_eq_nil_iff] at he
      have : i ∈ sel c.n fun k => s.u k ∧ 400 < c.ee k := mem_sel.mpr ⟨hi.1, hi.2, by rw [(h.ee i hi).1, e400]; exact hi4⟩
      rw [he] at this
      simp at this
    · intro y hy
      obtain ⟨k, hk, rfl⟩ := List.mem_map.mp hy
      obtain ⟨k1, k2, -⟩ := mem_sel.mp hk
      exact (par k ⟨k1, k2⟩).2.2.1
  unfold extractDesoto
  rw [hr]
  simp only [hio, hil, hrs]

/-- **C148, band gap.**  The band gap comes out more than 17 % too large: 1.121 eV gives more than 1.31 eV. -/
theorem egFactor_bounds : 1.17 < egFactor ∧ egFactor < 1.18 ∧ 1.31 < 1.121 * egFactor := by
  unfold egFactor kB qe kEV
  norm_num

/-- **C148, one irradiance.**  If all the kept curves above 400 W/m² were taken at one irradiance, the De Soto extraction raises
IndexError. -/
theorem one_irradiance_raises {fl : FitLib} (hf : GoodRlm fl) {c : Curves} {s : State} {tc : Series} (α : Fl) {E : ℝ} {R : ℕ → ℝ}
    (hE : 400 < E) (h1 : ∃ k, Kept c s k ∧ c.ee k = fin E)
    (hall : ∀ k, Kept c s k → 400 < c.ee k → c.ee k = fin E ∧ s.rsh k = fin (R k)) :
    extractDesoto fl c constants tc α s = .error .indexError := by
  have e400 : (400 : Fl) = fin 400 := ofNat_eq
  have c1 : constants.E0 = fin 1000 := ofNat_eq
  have e : ((sel c.n fun k => s.u k ∧ 400 < c.ee k).map fun k => (constants.E0 / c.ee k, s.rsh k)) =
      ((sel c.n fun k => s.u k ∧ 400 < c.ee k).map fun k => (1000 / E, R k)).map fun p => (fin p.1, fin p.2) := by
    rw [List.map_map]
    refine List.map_congr_left fun k hk => ?_
    obtain ⟨k1, k2, k3⟩ := mem_sel.mp hk
    obtain ⟨a1, a2⟩ := hall k ⟨k1, k2⟩ k3
    rw [c1, a1, a2, fin_div (by linarith)]
    rfl
  have hl := hf.const ((sel c.n fun k => s.u k ∧ 400 < c.ee k).map fun k => (1000 / E, R k)) (1000 / E) (by
      obtain ⟨k, hk, he⟩ := h1
      have : k ∈ sel c.n fun k => s.u k ∧ 400 < c.ee k := mem_sel.mpr ⟨hk.1, hk.2, by rw [he, e400]; exact hE⟩
      intro h0
      rw [List.map_eq_nil_iff] at h0
      rw [h0] at this
      simp at this) (by
      have : 0 < E := by linarith
      positivity) (by
      intro p hp
      obtain ⟨k, -, rfl⟩ := List.mem_map.mp hp
      rfl)
  unfold extractDesoto
  rw [e]
  generalize fl.rlm _ = l at hl ⊢
  match l, hl with
  | [_], _ => rfl

/-! ### PVsyst -/

/-- The curves are those of a PVsyst module with diode factors `g`; nothing is said about the shunt resistances. -/
structure Pvsyst (c : Curves) (s : State) (tc gs : Series) (E T g : ℕ → ℝ) (α IL I0 Rs Eg : ℝ) : Prop where
  ee : ∀ k, Kept c s k → c.ee k = fin (E k) ∧ 0 < E k
  tc : ∀ k, Kept c s k → tc k = fin (T k) ∧ 0 < kel (T k)
  gamma : ∀ k, Kept c s k → gs k = fin (g k) ∧ 0 < g k
  iph : ∀ k, Kept c s k → s.iph k = pvsystIL (fin (E k)) (fin (T k)) (fin IL) (fin α)
  io : ∀ k, Kept c s k → s.io k = pvsystIo (fin (T k)) (fin (g k)) (fin I0) (fin Eg)
  rs : ∀ k, Kept c s k → s.rs k = fin Rs
  pos : 0 < I0

/-- **C148, PVsyst.**  From curves that follow the PVsyst model exactly, light current, saturation current, band gap and series
resistance come out exactly; the two shunt parameters are those of the bounded least-squares fit. -/
theorem pvsyst_extraction {fl : FitLib} (hf : GoodRlm fl) {c : Curves} {s : State} {tc gs : Series} {E T g : ℕ → ℝ}
    {α IL I0 Rs Eg : ℝ} (h : Pvsyst c s tc gs E T g α IL I0 Rs Eg) {r0 rref : Fl}
    (hr : fl.boundedLsq (funRsh c constants s) (rshGuess c s) = .ok (r0, rref))
    (hT : ∃ i j, Kept c s i ∧ Kept c s j ∧ (1 / 298.15 - 1 / kel (T i)) / g i ≠ (1 / 298.15 - 1 / kel (T j)) / g j)
    (hE : ∃ i, Kept c s i ∧ 400 < E i) :
    extractPvsyst fl c constants tc gs (fin α) s = .ok (⟨fin IL, fin I0, fin Eg, rref, fin Rs⟩, r0) := by
  have h273 : (25 : ℝ) + 273.15 = 298.15 := by norm_num
  have e400 : (400 : Fl) = fin 400 := ofNat_eq
  have e1000 : (1000 : Fl) = fin 1000 := ofNat_eq
  have e25 : (25 : Fl) = fin 25 := ofNat_eq
  have e3 : (3 : Fl) = fin 3 := ofNat_eq
  have c1 : constants.E0 = fin 1000 := ofNat_eq
  have c2 : constants.T0 = fin 25 := ofNat_eq
  have hb : kB ≠ 0 := by unfold kB; norm_num
  have hq : qe ≠ 0 := by unfold qe; norm_num
  obtain ⟨i0, hi0, hi4⟩ := hE
  have hio : fitIo fl c constants tc (xPvsyst constants tc gs) s = .ok (fin I0, fin Eg) := by
    have e : ((sel c.n s.u).map fun k => (xPvsyst constants tc gs k, Fl.log (s.io k) - 3 * Fl.log ((tc k + fin 273.15) / (constants.T0 + fin 273.15)))) =
        ((sel c.n s.u).map fun k => (qe / kB * (1 / 298.15 - 1 / kel (T k)) / g k,
          Real.log I0 + Eg * (qe / kB * (1 / 298.15 - 1 / kel (T k)) / g k))).map fun p => (fin p.1, fin p.2) := by
      rw [List.map_map]
      refine List.map_congr_left fun k hk => ?_
      have hK : Kept c s k := mem_sel.mp hk
      obtain ⟨t1, t2⟩ := h.tc k hK
      obtain ⟨g1, g2⟩ := h.gamma k hK
      have hI := h.pos
      have hp : 0 < kel (T k) / 298.15 := div_pos t2 (by norm_num)
      have d1 : xPvsyst constants tc gs k = fin (qe / kB * (1 / 298.15 - 1 / kel (T k)) / g k) := by
        unfold xPvsyst
        dsimp only
        rw [c2, t1, g1]
        change fin qe / fin kB * _ / _ = _
        simp only [fin_add, h273, one_eq]
        rw [fin_div hb, fin_div (by norm_num), fin_div t2.ne', fin_sub, fin_mul, fin_div g2.ne']
      have d2 : Fl.log (s.io k) - 3 * Fl.log ((tc k + fin 273.15) / (constants.T0 + fin 273.15)) =
          fin (Real.log I0 + Eg * (qe / kB * (1 / 298.15 - 1 / kel (T k)) / g k)) := by
        rw [h.io k hK, c2, t1]
        unfold pvsystIo
        dsimp only
        rw [e25, one_eq]
        simp only [fin_add, h273, fin_mul]
        rw [fin_div (by norm_num), fin_pow, fin_mul, fin_div (mul_ne_zero hb g2.ne'), fin_div (by norm_num), fin_div t2.ne', fin_sub,
          fin_mul, exp_fin, fin_mul, log_fin (by positivity), log_fin hp, e3, fin_mul, fin_sub, fin_inj,
          Real.log_mul (by positivity) (Real.exp_ne_zero _), Real.log_mul hI.ne' (by positivity), Real.log_pow, Real.log_exp]
        have := g2.ne'
        push_cast
        field_simp
        ring
      simp only [Function.comp_apply]
      rw [d1, d2]
    unfold fitIo
    dsimp only
    rw [e, hf.line _ (Real.log I0) Eg]
    · simp only [exp_fin, Real.exp_log h.pos]
    · intro p hp
      obtain ⟨k, -, rfl⟩ := List.mem_map.mp hp
      rfl
    · obtain ⟨i, j, hi, hj, hT⟩ := hT
      refine ⟨_, List.mem_map_of_mem (mem_sel.mpr hi), _, List.mem_map_of_mem (mem_sel.mpr hj), ?_⟩
      intro he
      simp only [mul_div_assoc] at he
      exact hT (mul_left_cancel₀ (div_ne_zero hq hb) he)
  have hil : fitIL c constants tc (fin α) s = fin IL := by
    unfold fitIL
    have hv : ∀ k ∈ sel c.n s.u, s.iph k * (constants.E0 / c.ee k) - fin α * (tc k - constants.T0) = fin IL := by
      intro k hk
      have hK : Kept c s k := mem_sel.mp hk
      have hE0 := (h.ee k hK).2.ne'
      rw [c1, c2, (h.ee k hK).1, (h.tc k hK).1, h.iph k hK]
      unfold pvsystIL
      dsimp only
      rw [e1000, e25]
      simp only [fin_add, fin_sub, fin_mul]
      rw [fin_div (by norm_num), fin_mul, fin_div hE0, fin_mul, fin_sub, fin_inj]
      field_simp
      norm_num; ring
    refine meanOf_const ?_ ?_
    · intro he
      rw [List.filter_eq_nil_iff] at he
      have := he _ (List.mem_map_of_mem (mem_sel.mpr hi0))
      rw [hv i0 (mem_sel.mpr hi0)] at this
      simp at this
    · intro y hy
      obtain ⟨k, hk, rfl⟩ := List.mem_map.mp (List.mem_filter.mp hy).1
      exact hv k hk
  have hrs : fitRs c s = fin Rs := by
    unfold fitRs
    refine meanOf_const ?_ ?_
    · intro he
      rw [List.map_eq_nil_iff] at he
      have : i0 ∈ sel c.n fun k => s.u k ∧ 400 < c.ee k := mem_sel.mpr ⟨hi0.1, hi0.2, by rw [(h.ee i0 hi0).1, e400]; exact hi4⟩
      rw [he] at this
      simp at this
    · intro y hy
      obtain ⟨k, hk, rfl⟩ := List.mem_map.mp hy
      obtain ⟨k1, k2, -⟩ := mem_sel.mp hk
      exact h.rs k ⟨k1, k2⟩
  unfold extractPvsyst
  rw [hr]
  simp only [hio, hil, hrs]

/-- The PVsyst shunt resistance over the reals: from `r0` in the dark to its base. -/
def shunt (E ref r0 : ℝ) : ℝ :=
  max 0 ((ref - r0 * Real.exp (-5.5)) / (1 - Real.exp (-5.5))) +
    (r0 - max 0 ((ref - r0 * Real.exp (-5.5)) / (1 - Real.exp (-5.5)))) * Real.exp (-5.5 * E / 1000)

private theorem pvsystRsh_fin (E ref r0 : ℝ) : pvsystRsh (fin E) (fin ref) (fin r0) (fin 5.5) 1000 = fin (shunt E ref r0) := by
  have e1000 : (1000 : Fl) = fin 1000 := ofNat_eq
  have hlt : Real.exp (-5.5) < 1 := by rw [Real.exp_lt_one_iff]; norm_num
  unfold pvsystRsh shunt
  dsimp only
  rw [e1000, zero_eq, one_eq]
  simp only [neg_fin, exp_fin, fin_mul, fin_sub]
  rw [fin_div (by linarith), maximum_fin, fin_sub, fin_div (by norm_num), exp_fin, fin_mul, fin_add]

/-- **C148, shunt fit.**  If the measured shunt resistances follow the PVsyst equation with `R_sh_ref > R_sh_0 exp(-5.5)`, at two
irradiances or more, then parameters with which the fitted residuals vanish are the true ones. -/
theorem shunt_identified {c : Curves} {s : State} {E : ℕ → ℝ} {ref r0 ref' r0' : ℝ}
    (hE : ∀ k, Kept c s k → c.ee k = fin (E k))
    (hm : ∀ k, Kept c s k → s.rsh k = fin (shunt (E k) ref r0) ∧ 0 < shunt (E k) ref r0 ∧ 0 < shunt (E k) ref' r0')
    (h2 : ∃ i j, Kept c s i ∧ Kept c s j ∧ E i ≠ E j) (hb : r0 * Real.exp (-5.5) < ref)
    (hz : ∀ x ∈ funRsh c constants s (fin r0', fin ref'), x = 0) : ref' = ref ∧ r0' = r0 := by
  have h10 : Real.log 10 ≠ 0 := (Real.log_pos (by norm_num)).ne'
  have key : ∀ k, Kept c s k → shunt (E k) ref' r0' = shunt (E k) ref r0 := by
    intro k hk
    have := hz _ (List.mem_map_of_mem (mem_sel.mpr hk))
    dsimp only at this
    obtain ⟨m1, m2, m3⟩ := hm k hk
    have c1 : constants.E0 = 1000 := rfl
    have e10 : (10 : Fl) = fin 10 := ofNat_eq
    rw [c1, hE k hk, pvsystRsh_fin, m1, log_fin m2, log_fin m3, e10, log_fin (by norm_num), fin_div h10, fin_div h10, fin_sub,
      zero_eq, fin_inj, sub_eq_zero, div_left_inj' h10] at this
    exact Real.log_injOn_pos (by rwa [Set.mem_Ioi]) (by rwa [Set.mem_Ioi]) this
  obtain ⟨i, j, hi, hj, hij⟩ := h2
  have k1 := key i hi
  have k2 := key j hj
  have hlt : Real.exp (-5.5) < 1 := by rw [Real.exp_lt_one_iff]; norm_num
  have hex : Real.exp (-5.5 * E i / 1000) ≠ Real.exp (-5.5 * E j / 1000) := by
    intro h
    have := Real.exp_injective h
    apply hij
    linarith
  unfold shunt at k1 k2
  have hB : 0 < (ref - r0 * Real.exp (-5.5)) / (1 - Real.exp (-5.5)) := div_pos (by linarith) (by linarith)
  rw [max_eq_right hB.le] at k1 k2
  generalize hBe : (ref - r0 * Real.exp (-5.5)) / (1 - Real.exp (-5.5)) = B at k1 k2 hB
  generalize hCe : max 0 ((ref' - r0' * Real.exp (-5.5)) / (1 - Real.exp (-5.5))) = C at k1 k2
  have h1 : ((r0' - C) - (r0 - B)) * (Real.exp (-5.5 * E i / 1000) - Real.exp (-5.5 * E j / 1000)) = 0 := by linarith
  have h3 : (r0' - C) - (r0 - B) = 0 := by
    rcases mul_eq_zero.mp h1 with h | h
    · exact h
    · exact absurd (sub_eq_zero.mp h) hex
  have h4 : C = B := by
    have e : r0' - C = r0 - B := by linarith
    rw [e] at k1
    linarith
  have h5 : r0' = r0 := by linarith
  refine ⟨?_, h5⟩
  have h6 : (ref' - r0' * Real.exp (-5.5)) / (1 - Real.exp (-5.5)) = B := by
    rcases le_total ((ref' - r0' * Real.exp (-5.5)) / (1 - Real.exp (-5.5))) 0 with h | h
    · rw [max_eq_left h] at hCe; linarith
    · rw [max_eq_right h] at hCe; linarith
  rw [← hBe, div_left_inj' (by linarith), h5] at h6
  linarith

/-! ### Diode factors -/

/-- **C148, De Soto diode factor.**  If open circuit voltages follow `V0 + β (T - T0) + n Ns vth log(E / E0)`, with two different
abscissae, the diode factor is `n`. -/
theorem desoto_diode {fl : FitLib} (hf : GoodRlm fl) {iv : IvCurves} {E T : ℕ → ℝ} {V0 β Ns n : ℝ}
    (hE : ∀ k < iv.n, iv.ee k = fin (E k) ∧ 0 < E k) (hT : ∀ k < iv.n, iv.tc k = fin (T k))
    (hv : ∀ k < iv.n, iv.v_oc k = fin (V0 + β * (T k - 25) + n * Ns * (kB / qe * kel (T k)) * Real.log (E k / 1000)))
    (h2 : ∃ i < iv.n, ∃ j < iv.n, Ns * (kB / qe * kel (T i)) * Real.log (E i / 1000) ≠
      Ns * (kB / qe * kel (T j)) * Real.log (E j / 1000)) :
    desotoDiode fl constants iv (fin Ns) (fin β) = .ok (fin n) := by
  have c1 : constants.E0 = fin 1000 := ofNat_eq
  have c2 : constants.T0 = fin 25 := ofNat_eq
  have hq : qe ≠ 0 := by unfold qe; norm_num
  have e : ((List.range iv.n).map fun k => (fin Ns * vthOf constants iv k * Fl.log (iv.ee k / constants.E0),
      iv.v_oc k - fin β * (iv.tc k - constants.T0))) =
      ((List.range iv.n).map fun k => (Ns * (kB / qe * kel (T k)) * Real.log (E k / 1000),
        V0 + n * (Ns * (kB / qe * kel (T k)) * Real.log (E k / 1000)))).map fun p => (fin p.1, fin p.2) := by
    rw [List.map_map]
    refine List.map_congr_left fun k hk => ?_
    have hk := List.mem_range.mp hk
    obtain ⟨e1, e2⟩ := hE k hk
    simp only [Function.comp_apply, Prod.mk.injEq]
    have hlog : 0 < E k / 1000 := by positivity
    unfold vthOf
    rw [hv k hk, hT k hk, e1, c1, c2]
    constructor
    · change fin Ns * (fin kB / fin qe * _) * _ = _
      rw [fin_div hq, fin_add, fin_mul, fin_mul, fin_div (by norm_num), log_fin hlog, fin_mul]
    · rw [fin_sub, fin_mul, fin_sub, fin_inj]; ring
  unfold desotoDiode
  rw [e, hf.line _ V0 n]
  · intro p hp
    obtain ⟨k, -, rfl⟩ := List.mem_map.mp hp
    rfl
  · obtain ⟨i, hi, j, hj, hij⟩ := h2
    exact ⟨_, List.mem_map_of_mem (List.mem_range.mpr hi), _, List.mem_map_of_mem (List.mem_range.mpr hj), hij⟩

/-- The regressors of the PVsyst diode factor for one curve: `w = (q/k)(1/T0 - 1/T)`, `x = voc / (vth Ns)`, `d = T - T0`. -/
def gammaRow (w x d : ℝ) : List ℝ := [1, w, -w * d, x, -x * d]

/-- **C148, PVsyst diode factor.**  Suppose `isc - voc/rsh = io exp(voc / (γ Ns vth))` at every curve, with the PVsyst saturation
current, and `1/γ = 1/γ_ref - μ (T - T0) / γ_ref²` (the linearisation the method uses), and that no non-zero combination of the five
regressors vanishes on all the curves.  Then the method returns `γ_ref` and `μ`. -/
theorem pvsyst_gamma {lib : Sde.LinLib} (hl : Good lib) {iv : IvCurves} {rsh : Series} {V I R T : ℕ → ℝ} {Ns γ μ I0 Eg : ℝ}
    (hn : 0 < iv.n) (hI0 : 0 < I0) (hNs : Ns ≠ 0) (hγ : γ ≠ 0)
    (hdata : ∀ k < iv.n, iv.v_oc k = fin (V k) ∧ iv.i_sc k = fin (I k) ∧ rsh k = fin (R k) ∧ R k ≠ 0 ∧ iv.tc k = fin (T k) ∧
      0 < kel (T k))
    (hm : ∀ k < iv.n, I k - V k / R k = I0 * (kel (T k) / 298.15) ^ 3 *
      Real.exp ((Eg * (qe / kB * (1 / 298.15 - 1 / kel (T k))) + V k / (kB / qe * kel (T k) * Ns)) *
        (1 / γ - μ * (T k - 25) / γ ^ 2)))
    (hrank : ∀ a : List ℝ, a.length = 5 → (∀ k < iv.n, (List.zipWith (· * ·) (gammaRow (qe / kB * (1 / 298.15 - 1 / kel (T k)))
      (V k / (kB / qe * kel (T k) * Ns)) (T k - 25)) a).sum = 0) → a = [0, 0, 0, 0, 0]) :
    pvsystGammaFit lib constants iv rsh (fin Ns) = (fin γ, fin μ) := by
  have h273 : (25 : ℝ) + 273.15 = 298.15 := by norm_num
  have c2 : constants.T0 = fin 25 := ofNat_eq
  have hb : kB ≠ 0 := by unfold kB; norm_num
  have hq : qe ≠ 0 := by unfold qe; norm_num
  have e3 : (3 : Fl) = fin 3 := ofNat_eq
  -- rows
  set W : ℕ → ℝ := fun k => qe / kB * (1 / 298.15 - 1 / kel (T k)) with hW
  set X : ℕ → ℝ := fun k => V k / (kB / qe * kel (T k) * Ns) with hX
  set Y : ℕ → ℝ := fun k => Real.log I0 + (Eg * W k + X k) * (1 / γ - μ * (T k - 25) / γ ^ 2) with hY
  have hx1 : ∀ k < iv.n, constants.q / constants.k * (1 / (constants.T0 + fin 273.15) - 1 / (iv.tc k + fin 273.15)) = fin (W k) := by
    intro k hk
    obtain ⟨-, -, -, -, t1, t2⟩ := hdata k hk
    rw [c2, t1]
    change fin qe / fin kB * _ = _
    simp only [fin_add, h273, one_eq]
    rw [fin_div hb, fin_div (by norm_num), fin_div t2.ne', fin_sub, fin_mul]
  have hx2 : ∀ k < iv.n, iv.v_oc k / (vthOf constants iv k * fin Ns) = fin (X k) := by
    intro k hk
    obtain ⟨v1, -, -, -, t1, t2⟩ := hdata k hk
    unfold vthOf
    rw [v1, t1]
    change _ / (fin kB / fin qe * _ * _) = _
    rw [fin_div hq, fin_add, fin_mul, fin_mul, fin_div (mul_ne_zero (mul_ne_zero (div_ne_zero hb hq) t2.ne') hNs)]
  have hy : ∀ k < iv.n, Fl.log (iv.i_sc k - iv.v_oc k / rsh k) -
      3 * Fl.log ((iv.tc k + fin 273.15) / (constants.T0 + fin 273.15)) = fin (Y k) := by
    intro k hk
    obtain ⟨v1, v2, v3, v4, t1, t2⟩ := hdata k hk
    have hp : 0 < kel (T k) / 298.15 := div_pos t2 (by norm_num)
    rw [v1, v2, v3, t1, c2, fin_div v4, fin_sub, hm k hk, fin_add, fin_add, h273, fin_div (by norm_num), log_fin (by positivity),
      log_fin hp, e3, fin_mul, fin_sub, fin_inj, Real.log_mul (by positivity) (Real.exp_ne_zero _), Real.log_mul hI0.ne' (by positivity),
      Real.log_pow, Real.log_exp]
    push_cast
    simp only [hY, hW, hX]
    ring
  have hd : ∀ k < iv.n, iv.tc k + fin 273.15 - (constants.T0 + fin 273.15) = fin (T k - 25) := by
    intro k hk
    obtain ⟨-, -, -, -, t1, -⟩ := hdata k hk
    rw [t1, c2, fin_add, fin_add, fin_sub, fin_inj]; ring
  -- the selected rows are all rows
  have hsel : (sel iv.n fun k => ¬ (isnan (Fl.log (iv.i_sc k - iv.v_oc k / rsh k) -
      3 * Fl.log ((iv.tc k + fin 273.15) / (constants.T0 + fin 273.15))) ∨
      isnan (constants.q / constants.k * (1 / (constants.T0 + fin 273.15) - 1 / (iv.tc k + fin 273.15))))) = List.range iv.n := by
    refine sel_all fun k hk => ?_
    rw [hy k hk, hx1 k hk]
    simp
  have hrange : List.range iv.n ≠ [] := by
    intro h
    rw [List.range_eq_nil] at h
    omega
  set eqs : List (List ℝ × ℝ) := (List.range iv.n).map fun k => (gammaRow (W k) (X k) (T k - 25), Y k) with heqs
  have hlift : liftEqs eqs = (List.range iv.n).map fun k =>
      (([1, constants.q / constants.k * (1 / (constants.T0 + fin 273.15) - 1 / (iv.tc k + fin 273.15)),
        -(constants.q / constants.k * (1 / (constants.T0 + fin 273.15) - 1 / (iv.tc k + fin 273.15))) *
          (iv.tc k + fin 273.15 - (constants.T0 + fin 273.15)),
        iv.v_oc k / (vthOf constants iv k * fin Ns),
        -(iv.v_oc k / (vthOf constants iv k * fin Ns)) * (iv.tc k + fin 273.15 - (constants.T0 + fin 273.15))],
      Fl.log (iv.i_sc k - iv.v_oc k / rsh k) - 3 * Fl.log ((iv.tc k + fin 273.15) / (constants.T0 + fin 273.15))) : List Fl × Fl) := by
    unfold liftEqs
    rw [heqs, List.map_map]
    refine List.map_congr_left fun k hk => ?_
    have hk := List.mem_range.mp hk
    rw [hy k hk, hx1 k hk, hx2 k hk, hd k hk]
    simp [gammaRow, one_eq]
  obtain ⟨x, hx, he, hs⟩ := lstsq_solves hl 5 eqs (by rw [heqs]; simpa using hn.ne') (by
      intro e he
      rw [heqs] at he
      obtain ⟨k, -, rfl⟩ := List.mem_map.mp he
      rfl) [Real.log I0, Eg / γ, Eg * μ / γ ^ 2, 1 / γ, μ / γ ^ 2] rfl (by
      intro e he
      rw [heqs] at he
      obtain ⟨k, -, rfl⟩ := List.mem_map.mp he
      simp only [gammaRow, List.zipWith_cons_cons, List.zipWith_nil_left, List.sum_cons, List.sum_nil, hY]
      ring)
  match x, hx with
  | [a0, a1, a2, a3, a4], _ =>
    have hz := hrank [a0 - Real.log I0, a1 - Eg / γ, a2 - Eg * μ / γ ^ 2, a3 - 1 / γ, a4 - μ / γ ^ 2] rfl (by
      intro k hk
      have := hs _ (by rw [heqs]; exact List.mem_map_of_mem (List.mem_range.mpr hk))
      simp only [gammaRow, List.zipWith_cons_cons, List.zipWith_nil_left, List.sum_cons, List.sum_nil, hY] at this ⊢
      linear_combination this)
    simp only [List.cons.injEq, and_true] at hz
    obtain ⟨-, -, -, h3, h4⟩ := hz
    have h3' : a3 = 1 / γ := by linarith
    have h4' : a4 = μ / γ ^ 2 := by linarith
    unfold pvsystGammaFit
    dsimp only
    rw [hsel, if_neg hrange, ← hlift, he]
    simp only [List.map_cons, List.map_nil, List.getD_cons_succ, List.getD_cons_zero, one_eq]
    have hg : (1 / γ : ℝ) ≠ 0 := one_div_ne_zero hγ
    rw [h3', h4', fin_div hg, fin_pow, fin_div (pow_ne_zero 2 hg), Prod.mk.injEq, fin_inj, fin_inj]
    constructor
    · field_simp
    · field_simp

private theorem npMax_fin {l : List ℝ} (h : l ≠ []) : ∃ M ∈ l, npMax (l.map fin) = fin M ∧ ∀ x ∈ l, x ≤ M := by
  cases l with
  | nil => exact absurd rfl h
  | cons a l =>
    clear h
    simp only [List.map_cons, npMax]
    induction l generalizing a with
    | nil => exact ⟨a, by simp, rfl, by simp⟩
    | cons b l ih =>
      simp only [List.map_cons, List.foldl_cons, maximum_fin]
      obtain ⟨M, h1, h2, h3⟩ := ih (max a b)
      refine ⟨M, ?_, h2, ?_⟩
      · rcases List.mem_cons.mp h1 with rfl | h1
        · rcases max_choice a b with h | h <;> rw [h] <;> simp
        · simp [h1]
      · have hm := h3 (max a b) (by simp)
        intro x hx
        simp only [List.mem_cons] at hx
        rcases hx with rfl | rfl | hx
        · exact (le_max_left _ _).trans hm
        · exact (le_max_right _ _).trans hm
        · exact h3 x (by simp [hx])

/-- **C148, PVsyst.**  Where the shunt fit starts: `R_sh_0` at the mean of the shunt resistances below 400 W/m², without such curves at the
largest of all; `R_sh_ref` at the mean of those above 400 W/m², without such curves at the smallest of all. -/
theorem shunt_start (c : Curves) (s : State) (R E : ℕ → ℝ) (hn : 0 < c.n) (hR : ∀ k < c.n, s.rsh k = fin (R k))
    (hE : ∀ k < c.n, c.ee k = fin (E k)) :
    ((∀ k < c.n, 400 ≤ E k) → ∃ k < c.n, (rshGuess c s).1 = fin (R k) ∧ ∀ j < c.n, R j ≤ R k) ∧
    ((∀ k < c.n, E k ≤ 400) → ∃ k < c.n, (rshGuess c s).2 = fin (R k) ∧ ∀ j < c.n, R k ≤ R j) ∧
    (∀ k < c.n, E k < 400 → (rshGuess c s).1 =
      fin ((((List.range c.n).filter fun j => E j < 400).map R).sum / ((List.range c.n).filter fun j => E j < 400).length)) ∧
    (∀ k < c.n, 400 < E k → (rshGuess c s).2 =
      fin ((((List.range c.n).filter fun j => 400 < E j).map R).sum / ((List.range c.n).filter fun j => 400 < E j).length)) := by
  have e400 : (400 : Fl) = fin 400 := ofNat_eq
  have hl : (List.range c.n).map s.rsh = ((List.range c.n).map R).map fin := by
    rw [List.map_map]; exact List.map_congr_left fun k hk => hR k (List.mem_range.mp hk)
  have hl' : ((List.range c.n).map s.rsh).map (fun x => -x) = ((List.range c.n).map fun k => - R k).map fin := by
    rw [hl, List.map_map, List.map_map, List.map_map]; exact List.map_congr_left fun k hk => neg_fin _
  have hne : List.range c.n ≠ [] := by rw [ne_eq, List.range_eq_nil]; omega
  have mean : ∀ (p : ℕ → Prop) (q : ℕ → Prop), (∀ k < c.n, p k ↔ q k) → (∃ k < c.n, q k) →
      meanOf (((List.range c.n).filter fun k => ¬ isnan (s.rsh k) ∧ p k).map s.rsh) =
        fin ((((List.range c.n).filter fun k => q k).map R).sum / ((List.range c.n).filter fun k => q k).length) := by
    intro p q hpq ⟨k, hk, hq⟩
    have e1 : ((List.range c.n).filter fun k => ¬ isnan (s.rsh k) ∧ p k) = (List.range c.n).filter fun k => q k := by
      refine List.filter_congr fun j hj => decide_eq_decide.mpr ?_
      have hj := List.mem_range.mp hj
      rw [hR j hj, hpq j hj]
      simp
    rw [e1]
    have e2 : ((List.range c.n).filter fun k => q k).map s.rsh = (((List.range c.n).filter fun k => q k).map R).map fin := by
      rw [List.map_map]
      exact List.map_congr_left fun j hj => hR j (List.mem_range.mp (List.mem_of_mem_filter hj))
    rw [e2]
    unfold meanOf
    rw [sum_fin, List.length_map, List.length_map, fin_div]
    have : k ∈ (List.range c.n).filter fun k => q k := List.mem_filter.mpr ⟨List.mem_range.mpr hk, decide_eq_true hq⟩
    have := List.length_pos_of_mem this
    positivity
  unfold rshGuess
  dsimp only
  refine ⟨fun h => ?_, fun h => ?_, fun k hk h => ?_, fun k hk h => ?_⟩
  · rw [if_neg, hl]
    · obtain ⟨M, h1, h2, h3⟩ := npMax_fin (l := (List.range c.n).map R) (by simpa using hne)
      obtain ⟨k, hk, rfl⟩ := List.mem_map.mp h1
      exact ⟨k, List.mem_range.mp hk, h2, fun j hj => h3 _ (List.mem_map.mpr ⟨j, List.mem_range.mpr hj, rfl⟩)⟩
    · rintro ⟨k, hk, hlt⟩
      have hk := List.mem_range.mp hk
      rw [hE k hk, e400, fin_lt] at hlt
      linarith [h k hk]
  · rw [if_neg, hl']
    · obtain ⟨M, h1, h2, h3⟩ := npMax_fin (l := (List.range c.n).map fun k => - R k) (by simpa using hne)
      obtain ⟨k, hk, rfl⟩ := List.mem_map.mp h1
      refine ⟨k, List.mem_range.mp hk, by rw [h2, neg_fin, neg_neg], fun j hj => ?_⟩
      have := h3 _ (List.mem_map.mpr ⟨j, List.mem_range.mpr hj, rfl⟩)
      linarith
    · rintro ⟨k, hk, hlt⟩
      have hk := List.mem_range.mp hk
      rw [hE k hk, e400, fin_lt] at hlt
      linarith [h k hk]
  · rw [if_pos]
    · refine mean _ _ (fun j hj => ?_) ⟨k, hk, h⟩
      rw [hE j hj, e400, fin_lt]
    · exact ⟨k, List.mem_range.mpr hk, by rw [hE k hk, e400, fin_lt]; exact h⟩
  · rw [if_pos]
    · refine mean _ _ (fun j hj => ?_) ⟨k, hk, h⟩
      rw [hE j hj, e400, fin_lt]
    · exact ⟨k, List.mem_range.mpr hk, by rw [hE k hk, e400, fin_lt]; exact h⟩

/-! ### Witnesses -/

/-- Full rank is met by five curves: `voc / (vth Ns)` of 1 and 2 at 25 and 35 degrees, and 1 at 45 degrees. -/
example (a : List ℝ) (ha : a.length = 5) (w1 w2 : ℝ) (h1 : w1 ≠ 0) (h2 : w2 ≠ 0)
    (h : ∀ r ∈ [gammaRow 0 1 0, gammaRow 0 2 0, gammaRow w1 1 10, gammaRow w1 2 10, gammaRow w2 1 20],
      (List.zipWith (· * ·) r a).sum = 0) : a = [0, 0, 0, 0, 0] := by
  match a, ha with
  | [a0, a1, a2, a3, a4], _ =>
    simp only [gammaRow, List.mem_cons, List.not_mem_nil, or_false, forall_eq_or_imp, forall_eq, List.zipWith_cons_cons,
      List.zipWith_nil_left, List.sum_cons, List.sum_nil] at h
    obtain ⟨e1, e2, e3, e4, e5⟩ := h
    have h3 : a3 = 0 := by linarith
    have h0 : a0 = 0 := by linarith
    subst h3 h0
    have h4 : a4 = 0 := by linarith
    subst h4
    have h6 : a1 - 10 * a2 = 0 := by
      have : w1 * (a1 - 10 * a2) = 0 := by linarith
      exact (mul_eq_zero.mp this).resolve_left h1
    have h7 : a1 - 20 * a2 = 0 := by
      have : w2 * (a1 - 20 * a2) = 0 := by linarith
      exact (mul_eq_zero.mp this).resolve_left h2
    have h8 : a2 = 0 := by linarith
    have h9 : a1 = 0 := by linarith
    rw [h8, h9]

/-- Two curves of a De Soto module, at (1000, 25) and (500, 50). -/
def exE (k : ℕ) : ℝ := if k = 0 then 1000 else 500
def exT (k : ℕ) : ℝ := if k = 0 then 25 else 50
def exFive (k : ℕ) : Five :=
  calcparamsDesoto (fin (exE k)) (fin (exT k)) (fin 0.003) (fin 1.5) (fin 6) (fin 1e-10) (fin 300) (fin 0.3) (fin 1.121)
def exCurves : Curves := ⟨2, 0, 0, 0, 0, fun k => fin (exE k), fun k => (exFive k).nNsVth⟩
def exState : State := ⟨fun k => (exFive k).IL, fun k => (exFive k).I0, fun k => (exFive k).Rs, fun k => (exFive k).Rsh, fun _ => True⟩

/-- The fit of that module's curves gives its parameters, with a band gap above 1.31 instead of 1.121. -/
example {fl : FitLib} (hf : GoodRlm fl) : ∃ eg : ℝ, 1.31 < eg ∧
    extractDesoto fl exCurves constants (fun k => fin (exT k)) (fin 0.003) exState =
      .ok ⟨fin 6, fin 1e-10, fin eg, fin 300, fin 0.3⟩ := by
  refine ⟨_, egFactor_bounds.2.2, desoto_extraction hf (E := exE) (T := exT) (aref := 1.5) ⟨?_, ?_, fun k _ => rfl, by norm_num⟩ ?_ ?_⟩
  · intro k _
    exact ⟨rfl, by unfold exE; split <;> norm_num⟩
  · intro k _
    exact ⟨rfl, by unfold exT kel; split <;> norm_num⟩
  · exact ⟨0, 1, ⟨by simp [exCurves], trivial⟩, ⟨by simp [exCurves], trivial⟩, by norm_num [exT]⟩
  · exact ⟨0, 1, ⟨by simp [exCurves], trivial⟩, ⟨by simp [exCurves], trivial⟩, by norm_num [exE], by norm_num [exE], by norm_num [exE]⟩

end Pvlib.Props.SdmExtract
end
