import Verif.Model.Inverter

/-!
# Properties of the inverter and transformer models (C01–C06)
-/

noncomputable section
open scoped Classical
namespace Pvlib.Props.Inverter
open Fl Pvlib.Inverter

/-! ## Specification: the published Sandia efficiency curve on real numbers -/

/-- Real-valued inverter parameters (what the CEC database holds). -/
structure RealSandia where
  (paco pdco vdco pso c0 c1 c2 c3 pnt : ℝ)

/-- The parameter dict holding these reals. -/
def RealSandia.toParams (s : RealSandia) : SandiaParams :=
  ⟨fin s.paco, fin s.pdco, fin s.vdco, fin s.pso, fin s.c0, fin s.c1, fin s.c2, fin s.c3, fin s.pnt⟩

/-- King et al. 2007, eqs. 1-4: voltage-adjusted rating, threshold and curvature. -/
def RealSandia.A (s : RealSandia) (v : ℝ) : ℝ := s.pdco * (1 + s.c1 * (v - s.vdco))
def RealSandia.B (s : RealSandia) (v : ℝ) : ℝ := s.pso * (1 + s.c2 * (v - s.vdco))
def RealSandia.C (s : RealSandia) (v : ℝ) : ℝ := s.c0 * (1 + s.c3 * (v - s.vdco))
def RealSandia.curve (s : RealSandia) (v p : ℝ) : ℝ :=
  (s.paco / (s.A v - s.B v) - s.C v * (s.A v - s.B v)) * (p - s.B v) + s.C v * (p - s.B v) ^ 2

/-- A typical inverter (numbers of the order of a CEC entry), used in the examples. -/
def demo : RealSandia := ⟨250, 259, 40, 2, -0.00004, -0.0001, 0.0005, -0.013, 0.02⟩

theorem sandiaEff_fin (s : RealSandia) (v p : ℝ) (h : s.A v ≠ s.B v) :
    sandiaEff (fin v) (fin p) s.toParams = fin (s.curve v p) := by
  have h' : s.pdco * (1 + s.c1 * (v - s.vdco)) - s.pso * (1 + s.c2 * (v - s.vdco)) ≠ 0 :=
    sub_ne_zero.mpr h
  simp [sandiaEff, RealSandia.toParams, RealSandia.curve, RealSandia.A, RealSandia.B,
    RealSandia.C, h']

/-! ## C01 -/

/-- C01(a). AC power never exceeds the rated `Paco`, whatever the inputs (NaN, inf, any dict). -/
theorem sandia_le_Paco (v p : Fl) (q : SandiaParams) (paco : ℝ) (hq : q.Paco = fin paco)
    (h0 : 0 ≤ paco) : sandia v p q = nan ∨ sandia v p q ≤ q.Paco := by
  unfold sandia sandiaLimits
  dsimp only
  split_ifs with h
  · rcases q.Pnt with _ | _ | r | _
    · simp
    · right; rw [hq]; simp [infSign_neg]
    · right; rw [hq]; simp; exact le_trans (neg_nonpos.mpr (abs_nonneg r)) h0
    · right; rw [hq]; simp [infSign_neg]
  · by_cases hn : minimum q.Paco (sandiaEff v p q) = nan
    · exact Or.inl hn
    · exact Or.inr (minimum_le_left hn)

example : sandia 40 260 demo.toParams ≤ demo.toParams.Paco := by
  rcases sandia_le_Paco 40 260 demo.toParams 250 rfl (by norm_num) with h | h
  · exfalso
    have hA : demo.A 40 ≠ demo.B 40 := by norm_num [demo, RealSandia.A, RealSandia.B]
    have h2 := sandiaEff_fin demo 40 260 hA
    have : ¬ (260 : ℝ) < 2 := by norm_num
    simp [sandia, sandiaLimits, RealSandia.toParams, demo, this] at h h2
    rw [h2] at h
    simp at h
  · exact h

/-- C01(b). Below the start-up power the output is exactly the night tare `-|Pnt|`. -/
theorem sandia_night (v p : Fl) (q : SandiaParams) (pnt : ℝ) (hq : q.Pnt = fin pnt)
    (h : p < q.Pso) : sandia v p q = fin (-|pnt|) := by
  simp [sandia, sandiaLimits, h, hq]

example : (0 : Fl) < demo.toParams.Pso ∧ demo.toParams.Pnt = fin 0.02 :=
  ⟨show (0 : ℝ) < 2 by norm_num, rfl⟩

/-- C01(c). From the start-up power on, the output is the published curve capped at `Paco`. -/
theorem sandia_operating (s : RealSandia) (v p : ℝ) (h : s.A v ≠ s.B v) (hp : s.pso ≤ p) :
    sandia (fin v) (fin p) s.toParams = fin (min s.paco (s.curve v p)) := by
  have : ¬ (fin p < s.toParams.Pso) := by simpa [RealSandia.toParams] using hp
  simp only [sandia, sandiaLimits, sandiaEff_fin s v p h, this, if_false]
  simp [RealSandia.toParams]

example : demo.A 45 ≠ demo.B 45 ∧ demo.pso ≤ 100 := by
  norm_num [demo, RealSandia.A, RealSandia.B]

/-- C01(d). A NaN DC power gives a NaN AC power, never a number. -/
theorem sandia_nan (v : Fl) (q : SandiaParams) : sandia v nan q = nan := by
  simp [sandia, sandiaLimits, sandiaEff]

/-! ## C02 -/

/-- C02(a). At the rated DC voltage and power the model returns exactly the rated AC power. -/
theorem sandia_rated (s : RealSandia) (h : s.pso < s.pdco) :
    sandia (fin s.vdco) (fin s.pdco) s.toParams = fin s.paco := by
  have hA : s.A s.vdco ≠ s.B s.vdco := by simp [RealSandia.A, RealSandia.B, h.ne']
  rw [sandia_operating s _ _ hA h.le]
  have hne : s.pdco - s.pso ≠ 0 := sub_ne_zero.mpr h.ne'
  have : s.curve s.vdco s.pdco = s.paco := by
    simp only [RealSandia.curve, RealSandia.A, RealSandia.B, RealSandia.C, sub_self, mul_zero,
      add_zero, mul_one]
    field_simp
    ring
  simp [this]

example : demo.pso < demo.pdco := by norm_num [demo]

/-- C02(b). At the rated DC voltage, exactly at the start-up power, the output is zero. -/
theorem sandia_startup (s : RealSandia) (h : s.pso < s.pdco) (h0 : 0 ≤ s.paco) :
    sandia (fin s.vdco) (fin s.pso) s.toParams = fin 0 := by
  have hA : s.A s.vdco ≠ s.B s.vdco := by simp [RealSandia.A, RealSandia.B, h.ne']
  rw [sandia_operating s _ _ hA le_rfl]
  have : s.curve s.vdco s.pso = 0 := by
    simp [RealSandia.curve, RealSandia.A, RealSandia.B, RealSandia.C]
  simp [this, h0]

example : demo.pso < demo.pdco ∧ 0 ≤ demo.paco := by norm_num [demo]

/-! ## C03 -/

/-- C03(a). `sandia_multi` raises exactly when the lists have different lengths. -/
theorem sandiaMulti_error_iff (v p : List Fl) (q : SandiaParams) :
    (∃ e, sandiaMulti v p q = .error e) ↔ p.length ≠ v.length := by
  unfold sandiaMulti
  split_ifs with h
  · simp [h]
  · simp only [exists_false, false_iff, reduceCtorEq]; simpa using h

theorem sandiaMulti_error (v p : List Fl) (q : SandiaParams) (h : p.length ≠ v.length) :
    sandiaMulti v p q = .error .valueError := by simp [sandiaMulti, h]

example := sandiaMulti_error [40, 41] [100] demo.toParams (by simp)

/-- C03(b). Listing the MPPT inputs in another order never changes the result. -/
theorem sandiaMulti_perm (vp vp' : List (Fl × Fl)) (q : SandiaParams) (h : vp.Perm vp') :
    sandiaMulti (vp.map Prod.fst) (vp.map Prod.snd) q
      = sandiaMulti (vp'.map Prod.fst) (vp'.map Prod.snd) q := by
  have hz : ∀ l : List (Fl × Fl), (l.map Prod.fst).zip (l.map Prod.snd) = l := by
    intro l; rw [List.zip_map']; simp
  have hs : Fl.sum (vp.map Prod.snd) = Fl.sum (vp'.map Prod.snd) := sum_perm (h.map _)
  have hl : ∀ a, sandiaMultiLoop (Fl.sum (vp'.map Prod.snd)) q vp a
      = sandiaMultiLoop (Fl.sum (vp'.map Prod.snd)) q vp' a := by
    intro a
    unfold sandiaMultiLoop
    haveI : RightCommutative (fun (acc : Fl) (vp_1 : Fl × Fl) =>
        acc + vp_1.2 / Fl.sum (vp'.map Prod.snd) * sandiaEff vp_1.1 (Fl.sum (vp'.map Prod.snd)) q) :=
      ⟨fun a b c => add_right_comm' _ _ _⟩
    exact h.foldl_eq _
  simp only [sandiaMulti, List.length_map, ne_eq, not_true_eq_false, if_false, hz, hs, hl]

example : [((40 : Fl), (100 : Fl)), (42, 80)].Perm [(42, 80), (40, 100)] := List.Perm.swap _ _ _

theorem loop_fin (s : RealSandia) (P : ℝ) (hP : P ≠ 0) (vps : List (ℝ × ℝ))
    (hA : ∀ vp ∈ vps, s.A vp.1 ≠ s.B vp.1) (a : ℝ) :
    sandiaMultiLoop (fin P) s.toParams (vps.map fun vp => (fin vp.1, fin vp.2)) (fin a)
      = fin (a + (vps.map fun vp => vp.2 / P * s.curve vp.1 P).sum) := by
  induction vps generalizing a with
  | nil => simp [sandiaMultiLoop]
  | cons x xs ih =>
      have hx := hA x (by simp)
      have ih' := ih (fun vp h => hA vp (by simp [h]))
      unfold sandiaMultiLoop at ih' ⊢
      simp only [List.map_cons, List.foldl_cons, sandiaEff_fin s x.1 P hx, fin_div hP, fin_mul,
        fin_add, ih', List.sum_cons, fin_inj]
      ring

/-- C03(c). The general value: the efficiency curves evaluated at the *total* DC power and each
input's own voltage, weighted by each input's share of the power, then limited. -/
theorem sandiaMulti_value (s : RealSandia) (vps : List (ℝ × ℝ))
    (hA : ∀ vp ∈ vps, s.A vp.1 ≠ s.B vp.1) (hP : (vps.map Prod.snd).sum ≠ 0) :
    sandiaMulti (vps.map (fin ·.1)) (vps.map (fin ·.2)) s.toParams
      = .ok (let P := (vps.map Prod.snd).sum
             if P < s.pso then fin (-|s.pnt|)
             else fin (min s.paco (vps.map fun vp => vp.2 / P * s.curve vp.1 P).sum)) := by
  have hz : (vps.map (fin ·.1)).zip (vps.map (fin ·.2)) = vps.map fun vp => (fin vp.1, fin vp.2) := by
    rw [List.zip_map']
  have hs : Fl.sum (vps.map (fin ·.2)) = fin (vps.map Prod.snd).sum := by
    rw [← sum_fin, List.map_map]; rfl
  have hl := loop_fin s _ hP vps hA 0
  simp only [zero_add] at hl
  simp only [sandiaMulti, List.length_map, ne_eq, not_true_eq_false, if_false, hz, hs, zero_eq,
    fin_mul, zero_mul, hl, sandiaLimits]
  by_cases hlt : (vps.map Prod.snd).sum < s.pso <;>
    simp [RealSandia.toParams, hlt]

example : demo.A 40 ≠ demo.B 40 ∧ ([((40 : ℝ), (100 : ℝ)), (40, 20)].map Prod.snd).sum ≠ 0 := by
  norm_num [demo, RealSandia.A, RealSandia.B]

/-- C03(d). Inputs that all sit at one voltage behave as a single input carrying their sum;
in particular (`ps = [p]`) one input gives what `sandia` gives. -/
theorem sandiaMulti_same_voltage (s : RealSandia) (v : ℝ) (ps : List ℝ) (hA : s.A v ≠ s.B v)
    (hP : ps.sum ≠ 0) :
    sandiaMulti (ps.map fun _ => fin v) (ps.map fin) s.toParams
      = .ok (sandia (fin v) (fin ps.sum) s.toParams) := by
  have key := sandiaMulti_value s (ps.map fun p => (v, p)) (by simp; intro _ _; exact hA)
    (by simpa [List.map_map, Function.comp_def] using hP)
  simp only [List.map_map, Function.comp_def, List.map_id'] at key
  rw [key]
  have h1 : ∀ (c : ℝ), (ps.map fun p => p / ps.sum * c).sum = c := by
    intro c
    have : (ps.map fun p => p / ps.sum * c).sum = ps.sum * (c / ps.sum) := by
      have := List.sum_map_mul_right (l := ps) (f := fun p => p) (r := c / ps.sum)
      simp only [List.map_id'] at this
      rw [← this]
      congr 1
      refine List.map_congr_left fun a _ => ?_
      ring
    rw [this]; field_simp
  rw [h1]
  simp only [sandia, sandiaLimits, sandiaEff_fin s v _ hA]
  by_cases hlt : ps.sum < s.pso <;> simp [RealSandia.toParams, hlt]

example : demo.A 41 ≠ demo.B 41 ∧ ([100, 50, 25] : List ℝ).sum ≠ 0 := by
  norm_num [demo, RealSandia.A, RealSandia.B]

/-- C03(e). With no DC power at all (every `pdc/power_dc` is `0/0`) the result is still the night
tare, not NaN. -/
theorem sandiaMulti_dark (s : RealSandia) (vs : List ℝ) (h : 0 < s.pso) :
    sandiaMulti (vs.map fin) (vs.map fun _ => fin 0) s.toParams = .ok (fin (-|s.pnt|)) := by
  have hs : Fl.sum (vs.map fun _ => fin 0) = fin 0 := by
    have := sum_fin (vs.map fun _ => (0 : ℝ))
    rw [List.map_map] at this
    have h2 : (vs.map fun _ => (0 : ℝ)).sum = 0 := by simp
    rw [h2] at this
    exact this
  simp only [sandiaMulti, List.length_map, ne_eq, not_true_eq_false, if_false, hs, sandiaLimits]
  simp [RealSandia.toParams, h]

example : 0 < demo.pso := by norm_num [demo]

/-! ## C04 -/

/-- C04(a). `adr` is NaN or within `[-|Pnt|, Pacmax]`. -/
theorem adr_range (v p : Fl) (q : AdrParams) (vtol : Fl) (pnt pmax : ℝ)
    (h1 : q.Pnt = fin pnt) (h2 : q.Pacmax = fin pmax) (h : -|pnt| ≤ pmax) :
    NanOr (adr v p q vtol) fun r => -|pnt| ≤ r ∧ r ≤ pmax := by
  unfold adr
  dsimp only
  rw [h1, h2]
  generalize npwhere (eqv _ _) _ _ = x
  cases x <;> simp [h]

example := adr_range (fin 300) (fin 1000) ⟨fin 2000, fin 320, fin 1960, fin 0.2, [], fin 400, fin 150, fin 480, fin 400, fin 250⟩
  (fin 0.1) 0.2 1960 rfl rfl (by norm_num [abs_of_pos])

/-- C04(b). Outside the (tolerance-widened) voltage window, at non-zero voltage, the result is NaN. -/
theorem adr_out_of_window (v p : Fl) (q : AdrParams) (vtol : Fl) (hv : ¬ eqv (v / q.Vnom) 0)
    (h : nanmax [q.Vmax, q.Vdcmax, q.MPPTHi] * (1 + vtol) < v ∨
         v < nanmax [q.Vmin, q.MPPTLow] * (1 - vtol)) :
    adr v p q vtol = nan := by
  unfold adr
  dsimp only
  rw [npwhere_pos h, npwhere_neg hv]
  simp

example : adr (fin 600) (fin 1000) ⟨fin 2000, fin 320, fin 1960, fin 0.2, [], fin 400, fin 150, fin 480, fin 400, fin 250⟩
    (fin 0.1) = nan := by
  refine adr_out_of_window _ _ _ _ ?_ (Or.inl ?_)
  · dsimp only
    rw [fin_div (by norm_num), zero_eq]
    simp
  · have h1 : nanmax [fin 400, fin 480, fin 400] = fin 480 := by
      norm_num [nanmax]
    dsimp only
    rw [h1, one_eq]
    simp only [fin_add, fin_mul, fin_lt]
    norm_num

/-- C04(c). At zero DC voltage the result is exactly the night tare, whatever the DC power. -/
theorem adr_night (p : Fl) (q : AdrParams) (vtol : Fl) (pnt pmax vnom : ℝ)
    (h1 : q.Pnt = fin pnt) (h2 : q.Pacmax = fin pmax) (h3 : q.Vnom = fin vnom) (hv : vnom ≠ 0)
    (h : -|pnt| ≤ pmax) : adr 0 p q vtol = fin (-|pnt|) := by
  simp [adr, h1, h2, h3, hv, npwhere, h]

example := adr_night (fin 0) ⟨fin 2000, fin 320, fin 1960, fin 0.2, [], fin 400, fin 150, fin 480, fin 400, fin 250⟩
  (fin 0.1) 0.2 1960 320 rfl rfl rfl (by norm_num) (by norm_num [abs_of_pos])

/-- C04(d). Inside the window the result is `Pnom*(pdc - loss polynomial)` limited to
`[-|Pnt|, Pacmax]`, with the nine published basis terms. -/
theorem adr_operating (v p pnom vnom pmax pnt vmax vmin vdcmax hi lo vtol : ℝ)
    (b0 b1 b2 b3 b4 b5 b6 b7 b8 : ℝ) (hpn : pnom ≠ 0) (hvn : vnom ≠ 0) (hv : v ≠ 0)
    (hlo : max vmin lo * (1 - vtol) ≤ v) (hhi : v ≤ max vmax (max vdcmax hi) * (1 + vtol)) :
    adr (fin v) (fin p)
      ⟨fin pnom, fin vnom, fin pmax, fin pnt,
        [fin b0, fin b1, fin b2, fin b3, fin b4, fin b5, fin b6, fin b7, fin b8],
        fin vmax, fin vmin, fin vdcmax, fin hi, fin lo⟩ (fin vtol)
      = fin (let x := p / pnom
             let y := v / vnom
             let loss := b0 + b1 * x + b2 * x ^ 2 + b3 * (y - 1) + b4 * (x * (y - 1))
                + b5 * (x ^ 2 * (y - 1)) + b6 * (1 / y - 1) + b7 * (x * (1 / y - 1))
                + b8 * (x ^ 2 * (1 / y - 1))
             min (max (pnom * (x - loss)) (-|pnt|)) pmax) := by
  have hy : v / vnom ≠ 0 := div_ne_zero hv hvn
  have e1 : nanmax [fin vmax, fin vdcmax, fin hi] = fin (max vmax (max vdcmax hi)) := by
    simp [nanmax]
  have e2 : nanmax [fin vmin, fin lo] = fin (max vmin lo) := by simp [nanmax]
  have hw : ¬ (fin (max vmax (max vdcmax hi)) * (1 + fin vtol) < fin v ∨
      fin v < fin (max vmin lo) * (1 - fin vtol)) := by
    simp only [one_eq, fin_add, fin_sub, fin_mul, fin_lt, not_or, not_lt]
    exact ⟨hhi, hlo⟩
  unfold adr
  dsimp only
  rw [e1, e2, npwhere_neg hw]
  simp [hpn, hvn, adrPoly, Fl.sum, npwhere, hv]

example : ∃ v vnom lo vmin vmax vdcmax hi vtol : ℝ, vnom ≠ 0 ∧ v ≠ 0 ∧
    max vmin lo * (1 - vtol) ≤ v ∧ v ≤ max vmax (max vdcmax hi) * (1 + vtol) :=
  ⟨300, 320, 250, 150, 400, 480, 400, 0.1, by norm_num, by norm_num, by norm_num, by norm_num⟩

/-! ## C05 -/

/-- Published PVWatts curve on reals (Dobos 2014, eq. 11), before limiting. -/
def pvwattsCurve (pdc pdc0 en er : ℝ) : ℝ :=
  en / er * (-0.0162 * (pdc / pdc0) - 0.0059 / (pdc / pdc0) + 0.9858) * pdc

/-- C05(a). Value for a finite non-zero DC power. -/
theorem pvwatts_value (pdc pdc0 en er : ℝ) (h0 : pdc0 ≠ 0) (her : er ≠ 0) (hp : pdc ≠ 0) :
    pvwatts (fin pdc) (fin pdc0) (fin en) (fin er)
      = fin (max 0 (min (en * pdc0) (pvwattsCurve pdc pdc0 en er))) := by
  have hz : pdc / pdc0 ≠ 0 := div_ne_zero hp h0
  simp [pvwatts, h0, her, hp, pvwattsCurve, Fl.eqv]

example := pvwatts_value 800 1000 0.96 0.9637 (by norm_num) (by norm_num) (by norm_num)

/-- C05(b). No DC power, no AC power (and no division by zero). -/
theorem pvwatts_zero (pdc0 en er : ℝ) (h0 : 0 < pdc0) (her : er ≠ 0) (hen : 0 ≤ en) :
    pvwatts 0 (fin pdc0) (fin en) (fin er) = 0 := by
  have := mul_nonneg hen h0.le
  simp [pvwatts, h0.ne', her, Fl.eqv]

example := pvwatts_zero 1000 0.96 0.9637 (by norm_num) (by norm_num) (by norm_num)

/-- C05(c). The result is NaN exactly when `pdc` is NaN; otherwise it is a real number between 0
and the AC rating `eta_inv_nom * pdc0` — also for infinite inputs. -/
theorem pvwatts_range (pdc : Fl) (pdc0 en er : ℝ) (h0 : 0 < pdc0) (her : 0 < er) (hen : 0 < en) :
    (pvwatts pdc (fin pdc0) (fin en) (fin er) = nan ↔ pdc = nan) ∧
    NanOr (pvwatts pdc (fin pdc0) (fin en) (fin er)) fun r => 0 ≤ r ∧ r ≤ en * pdc0 := by
  have hpos : 0 < en * pdc0 := mul_pos hen h0
  have hk : 0 < en / er := div_pos hen her
  have hk' : 0 < en / er * 0.0162 := by positivity
  rcases pdc with _ | _ | r | _
  · simp [pvwatts, Fl.eqv]
  · have e : pvwatts ninf (fin pdc0) (fin en) (fin er) = fin 0 := by
      have h1 : infSign (0.0162 : ℝ) = pinf := infSign_pos (by norm_num)
      simp [pvwatts, Fl.eqv, her.ne', ninf_div_fin, not_lt.mpr h0.le, h1]
      rw [infSign_pos (by linarith)]
      simp
    rw [e]; simp [hpos.le]
  · by_cases hr : r = 0
    · subst hr
      have := pvwatts_zero pdc0 en er h0 her.ne' hen.le
      rw [zero_eq] at this
      rw [this]; simp [hpos.le]
    · rw [pvwatts_value r pdc0 en er h0.ne' her.ne' hr]
      simp [hpos.le]
  · have e : pvwatts pinf (fin pdc0) (fin en) (fin er) = fin 0 := by
      have h1 : infSign (-0.0162 : ℝ) = ninf := infSign_neg (by norm_num)
      simp [pvwatts, Fl.eqv, her.ne', pinf_div_fin, not_lt.mpr h0.le, infSign_pos, hk, h1]
      rw [infSign_neg (by linarith)]
      simp
    rw [e]; simp [hpos.le]

example : (0:ℝ) < 100 ∧ (0:ℝ) < 0.9637 ∧ (0:ℝ) < 0.96 := by norm_num

/-- C05(d). With the default efficiencies the inverter never creates energy. -/
theorem pvwatts_le_dc (pdc pdc0 : ℝ) (h0 : 0 < pdc0) (hp : 0 ≤ pdc) :
    ∃ r, pvwatts (fin pdc) (fin pdc0) = fin r ∧ 0 ≤ r ∧ r ≤ pdc := by
  rcases hp.eq_or_lt with rfl | hp
  · exact ⟨0, pvwatts_zero pdc0 0.96 0.9637 h0 (by norm_num) (by norm_num), le_rfl, le_rfl⟩
  · refine ⟨_, pvwatts_value pdc pdc0 0.96 0.9637 h0.ne' (by norm_num) hp.ne', ?_, ?_⟩
    · exact le_max_left _ _
    · refine max_le hp.le (le_trans (min_le_right _ _) ?_)
      unfold pvwattsCurve
      have hz : 0 < pdc / pdc0 := div_pos hp h0
      have hz' : 0 < 0.0059 / (pdc / pdc0) := by positivity
      have : (0.96 / 0.9637 : ℝ) * (-0.0162 * (pdc / pdc0) - 0.0059 / (pdc / pdc0) + 0.9858) ≤ 1 := by
        have h3 : (-0.0162 * (pdc / pdc0) - 0.0059 / (pdc / pdc0) + 0.9858 : ℝ) ≤ 1 := by linarith
        have h4 : (0.96 / 0.9637 : ℝ) ≤ 1 := by norm_num
        have h5 : (0:ℝ) ≤ 0.96 / 0.9637 := by norm_num
        nlinarith
      nlinarith

example : (0:ℝ) < 5000 ∧ (0:ℝ) ≤ 4000 := by norm_num

/-- C05(e). More DC power never means less AC power, up to 30 times the DC rating. -/
theorem pvwatts_mono (p p' pdc0 en er : ℝ) (h0 : 0 < pdc0) (her : 0 < er) (hen : 0 < en)
    (hp : 0 < p) (hpp : p ≤ p') (hle : p' ≤ 30 * pdc0) :
    ∃ r r', pvwatts (fin p) (fin pdc0) (fin en) (fin er) = fin r ∧
      pvwatts (fin p') (fin pdc0) (fin en) (fin er) = fin r' ∧ r ≤ r' := by
  have hp' : 0 < p' := lt_of_lt_of_le hp hpp
  refine ⟨_, _, pvwatts_value p pdc0 en er h0.ne' her.ne' hp.ne',
    pvwatts_value p' pdc0 en er h0.ne' her.ne' hp'.ne', ?_⟩
  refine max_le_max le_rfl (min_le_min le_rfl ?_)
  have e : ∀ x : ℝ, x ≠ 0 → pvwattsCurve x pdc0 en er
      = en / er * (pdc0 * (-0.0162 * (x / pdc0) ^ 2 + 0.9858 * (x / pdc0) - 0.0059)) := by
    intro x hx
    unfold pvwattsCurve
    field_simp
    ring
  rw [e p hp.ne', e p' hp'.ne']
  have hk : 0 < en / er := div_pos hen her
  refine mul_le_mul_of_nonneg_left (mul_le_mul_of_nonneg_left ?_ h0.le) hk.le
  have ha : p / pdc0 ≤ p' / pdc0 := by gcongr
  have hb : p' / pdc0 ≤ 30 := by rw [div_le_iff₀ h0]; linarith
  nlinarith

example : (0:ℝ) < 100 ∧ (100:ℝ) ≤ 200 ∧ (200:ℝ) ≤ 30 * 150 := by norm_num

/-- The 30-times limit in C05(e) is genuine: at 60.5 times the DC rating the (default) model's
output has fallen below what it is at the rating. -/
theorem pvwatts_not_mono_everywhere :
    ∃ r r', pvwatts (fin 100) (fin 100) = fin r ∧ pvwatts (fin 6050) (fin 100) = fin r' ∧ r' < r := by
  refine ⟨_, _, pvwatts_value 100 100 0.96 0.9637 (by norm_num) (by norm_num) (by norm_num),
    pvwatts_value 6050 100 0.96 0.9637 (by norm_num) (by norm_num) (by norm_num), ?_⟩
  norm_num [pvwattsCurve]

/-- C05(f). Several MPPT inputs: only their sum matters, so their order does not. -/
theorem pvwattsMulti_perm (ps ps' : List Fl) (pdc0 en er : Fl) (h : ps.Perm ps') :
    pvwattsMulti ps pdc0 en er = pvwattsMulti ps' pdc0 en er := by
  simp [pvwattsMulti, sum_perm h]

example := pvwattsMulti_perm [fin 100, fin 200] [fin 200, fin 100] (fin 1000) (fin 0.96) (fin 0.9637) (List.Perm.swap _ _ _)

theorem pvwattsMulti_eq (ps : List ℝ) (pdc0 en er : Fl) :
    pvwattsMulti (ps.map fin) pdc0 en er = pvwatts (fin ps.sum) pdc0 en er := by
  simp [pvwattsMulti]

/-! ## C06 -/

/-- C06(a). The transformer output solves the published loss balance
`P_in = P_out + no_load*rating + load*P_out^2/rating`, and is non-negative exactly when the input
covers the no-load loss. -/
theorem transformer_balance (pin nl ll R : ℝ) (hR : 0 < R)
    (hd : 0 < 1 - 4 * ll * (nl - pin / R)) :
    ∃ P, simpleEfficiency (fin pin) (fin nl) (fin ll) (fin R) = fin P ∧
      P + nl * R + ll * P ^ 2 / R = pin ∧ (0 ≤ P ↔ nl * R ≤ pin) := by
  set c := nl - pin / R with hc
  set s := Real.sqrt (1 - 4 * ll * c) with hs
  have hspos : 0 ≤ s := Real.sqrt_nonneg _
  have hs2 : s ^ 2 = 1 - 4 * ll * c := Real.sq_sqrt hd.le
  have hden : -1 - s ≠ 0 := by linarith
  have hpow : rpow (fin (1 * 1 - 4 * ll * c)) (fin 0.5) = fin s := by
    rw [rpow_fin_pos (by simpa using hd), hs, Real.sqrt_eq_rpow]
    norm_num
  have hval : simpleEfficiency (fin pin) (fin nl) (fin ll) (fin R) = fin (2 * c / (-1 - s) * R) := by
    unfold simpleEfficiency
    simp only [one_eq, ofNat_eq, ofScientific_eq, fin_div hR.ne', fin_sub, fin_mul, ← hc, hpow,
      neg_fin, fin_div hden]
  refine ⟨_, hval, ?_, ?_⟩
  · have hpin : pin = (nl - c) * R := by rw [hc]; field_simp; ring
    have hq : ll * (2 * c / (-1 - s)) ^ 2 + 2 * c / (-1 - s) + c = 0 := by
      have h1 : (-1 - s) ^ 2 ≠ 0 := pow_ne_zero 2 hden
      field_simp
      have : s ^ 2 = 1 - 4 * ll * c := hs2
      linear_combination c * this
    rw [hpin]
    have hR' : R ≠ 0 := hR.ne'
    have : ll * (2 * c / (-1 - s) * R) ^ 2 / R = ll * (2 * c / (-1 - s)) ^ 2 * R := by
      field_simp
    rw [this]
    linear_combination R * hq
  · have hcs : 0 ≤ 2 * c / (-1 - s) * R ↔ c ≤ 0 := by
      constructor
      · intro h
        by_contra hcon
        push Not at hcon
        have h2 : 2 * c / (-1 - s) < 0 := div_neg_of_pos_of_neg (by linarith) (by linarith)
        nlinarith
      · intro h
        have h2 : 0 ≤ 2 * c / (-1 - s) := div_nonneg_of_nonpos (by linarith) (by linarith)
        positivity
    rw [hcs, hc, sub_nonpos, le_div_iff₀ hR]

example := transformer_balance 800 0.001 0.003 1000 (by norm_num) (by norm_num)

/-- C06(b). The output never exceeds the input (losses are losses). -/
theorem transformer_le_input (pin nl ll R : ℝ) (hR : 0 < R) (hll : 0 ≤ ll) (hnl : 0 ≤ nl)
    (hd : 0 < 1 - 4 * ll * (nl - pin / R)) :
    ∃ P, simpleEfficiency (fin pin) (fin nl) (fin ll) (fin R) = fin P ∧ P ≤ pin := by
  obtain ⟨P, h, hb, _⟩ := transformer_balance pin nl ll R hR hd
  refine ⟨P, h, ?_⟩
  have : 0 ≤ ll * P ^ 2 / R := by positivity
  have := mul_nonneg hnl hR.le
  linarith

example := transformer_le_input 800 0.001 0.003 1000 (by norm_num) (by norm_num) (by norm_num) (by norm_num)

/-- C06(c). More input, more output. -/
theorem transformer_strictMono (pin pin' nl ll R : ℝ) (hR : 0 < R) (hll : 0 ≤ ll)
    (hd : 0 < 1 - 4 * ll * (nl - pin / R)) (hlt : pin < pin') :
    ∃ P P', simpleEfficiency (fin pin) (fin nl) (fin ll) (fin R) = fin P ∧
      simpleEfficiency (fin pin') (fin nl) (fin ll) (fin R) = fin P' ∧ P < P' := by
  set c := nl - pin / R with hc
  set c' := nl - pin' / R with hc'
  have hcc : c' < c := by
    have : pin / R < pin' / R := by gcongr
    linarith
  have hd' : 0 < 1 - 4 * ll * c' := by nlinarith
  set s := Real.sqrt (1 - 4 * ll * c) with hs
  set s' := Real.sqrt (1 - 4 * ll * c') with hs'
  have hval : ∀ p : ℝ, 0 < 1 - 4 * ll * (nl - p / R) →
      simpleEfficiency (fin p) (fin nl) (fin ll) (fin R)
        = fin (2 * (nl - p / R) / (-1 - Real.sqrt (1 - 4 * ll * (nl - p / R))) * R) := by
    intro p hp
    have h0 := Real.sqrt_nonneg (1 - 4 * ll * (nl - p / R))
    have hden : -1 - Real.sqrt (1 - 4 * ll * (nl - p / R)) ≠ 0 := by linarith
    have hpow : rpow (fin (1 * 1 - 4 * ll * (nl - p / R))) (fin 0.5)
        = fin (Real.sqrt (1 - 4 * ll * (nl - p / R))) := by
      rw [rpow_fin_pos (by simpa using hp), Real.sqrt_eq_rpow]
      norm_num
    unfold simpleEfficiency
    simp only [one_eq, ofNat_eq, ofScientific_eq, fin_div hR.ne', fin_sub, fin_mul, hpow,
      neg_fin, fin_div hden]
  refine ⟨_, _, hval pin hd, hval pin' hd', ?_⟩
  have h1 : 0 ≤ s := Real.sqrt_nonneg _
  have h2 : 0 ≤ s' := Real.sqrt_nonneg _
  have e1 : s ^ 2 = 1 - 4 * ll * c := Real.sq_sqrt hd.le
  have e2 : s' ^ 2 = 1 - 4 * ll * c' := Real.sq_sqrt hd'.le
  refine mul_lt_mul_of_pos_right ?_ hR
  show 2 * c / (-1 - s) < 2 * c' / (-1 - s')
  have k1 : 2 * c / (-1 - s) = (-(2 * c)) / (1 + s) := by
    rw [← neg_div_neg_eq]; congr 1; ring
  have k2 : 2 * c' / (-1 - s') = (-(2 * c')) / (1 + s') := by
    rw [← neg_div_neg_eq]; congr 1; ring
  rw [k1, k2, div_lt_div_iff₀ (by linarith) (by linarith)]
  rcases hll.eq_or_lt with rfl | hll
  · have : s = s' := by rw [hs, hs']; simp
    rw [this]
    nlinarith
  · -- multiply by 2*ll : 4*ll*c = 1 - s^2
    have hss : s < s' := by
      apply Real.sqrt_lt_sqrt hd.le
      nlinarith
    have : ll * (-(2 * c) * (1 + s')) < ll * (-(2 * c') * (1 + s)) := by
      have a1 : ll * c = (1 - s ^ 2) / 4 := by linarith
      have a2 : ll * c' = (1 - s' ^ 2) / 4 := by linarith
      have b1 : ll * (-(2 * c) * (1 + s')) = -(2 * (ll * c)) * (1 + s') := by ring
      have b2 : ll * (-(2 * c') * (1 + s)) = -(2 * (ll * c')) * (1 + s) := by ring
      rw [b1, b2, a1, a2]
      nlinarith [mul_pos (sub_pos.mpr hss) (by linarith : 0 < 1 + s),
        mul_nonneg (mul_nonneg h1 h2) (sub_pos.mpr hss).le,
        mul_pos (mul_pos (sub_pos.mpr hss) (by linarith : 0 < 1 + s)) (by linarith : 0 < 1 + s')]
    exact lt_of_mul_lt_mul_left this hll.le

example : (0:ℝ) < 1 - 4 * 0.003 * (0.001 - 800 / 1000) ∧ (0:ℝ) < 1000 := by norm_num

/-- C06(d). A NaN input power gives NaN. -/
theorem transformer_nan (nl ll R : Fl) : simpleEfficiency nan nl ll R = nan := by
  simp [simpleEfficiency]

end Pvlib.Props.Inverter
end
