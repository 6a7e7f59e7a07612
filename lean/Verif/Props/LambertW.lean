import Verif.Props.SingleDiodeCurve

/-! # Property C69: the Lambert W solutions solve the single diode equation -/

noncomputable section
open scoped Classical
open Real
namespace Pvlib.Props.LambertW
open Fl Pvlib.SingleDiode Pvlib.Props.SingleDiode

/-! ### Specification -/

/-- The single diode equation with a shunt *conductance* `g`, in real numbers. -/
def Diode (IL I0 Rs g a i v : ℝ) : Prop :=
  i = IL - I0 * (Real.exp ((v + i * Rs) / a) - 1) - (v + i * Rs) * g

/-- The shunt resistance handed to pvlib, as a conductance (an infinite resistance is conductance zero). -/
def Conductance (Rsh : Fl) (g : ℝ) : Prop := (∃ r, Rsh = fin r ∧ r ≠ 0 ∧ g = 1 / r) ∨ (Rsh = pinf ∧ g = 0)

/-- The Lambert W function on the non-negative numbers. -/
def IsLambertW (W : Fl → Fl) : Prop := ∀ x : ℝ, 0 ≤ x → ∃ w, 0 ≤ w ∧ W (fin x) = fin w ∧ w * Real.exp w = x

/-- The Lambert W function of the exponential: the solution of `w + log w = l`. -/
def IsLogLambertW (LW : Fl → Fl) : Prop := ∀ l : ℝ, ∃ w, 0 < w ∧ LW (fin l) = fin w ∧ w + Real.log w = l

/-- Physically sensible parameters. -/
structure Sane (IL I0 Rs g a : ℝ) : Prop where
  IL : 0 ≤ IL
  I0 : 0 < I0
  Rs : 0 ≤ Rs
  g : 0 ≤ g
  a : 0 < a

/-- The same cell for `bishop88`. -/
def cell (IL I0 Rs g a : ℝ) : Cell := ⟨IL, I0, Rs, g, a, 0, 0, 0, -5.5, 3.28⟩

theorem solves_cell (IL I0 Rs g a i v : ℝ) : (cell IL I0 Rs g a).Solves i v ↔ Diode IL I0 Rs g a i v := by
  simp [Cell.Solves, cell, Cell.recomb, Cell.avalanche, Diode]

theorem physical_cell {IL I0 Rs g a : ℝ} (h : Sane IL I0 Rs g a) : Physical (cell IL I0 Rs g a) := by
  constructor <;> simp [cell, h.IL, h.I0, h.Rs, h.g, h.a] <;> norm_num

/-- At most one current for a voltage, one voltage for a current, and the curve falls. -/
theorem diode_unique {IL I0 Rs g a : ℝ} (h : Sane IL I0 Rs g a) {i v i' v' : ℝ} (hs : Diode IL I0 Rs g a i v)
    (hs' : Diode IL I0 Rs g a i' v') : (v = v' → i = i') ∧ (i = i' → v = v') ∧ (v < v' ↔ i' < i) :=
  solution_unique (physical_cell h) ((solves_cell ..).mpr hs) ((solves_cell ..).mpr hs')

example := (diode_unique (IL := 6) (I0 := 1) (Rs := 0) (g := 1) (a := 1) (by constructor <;> norm_num) (i := 6) (v := 0) (i' := 6 - (Real.exp 1 - 1) - 1) (v' := 1)
  (by norm_num [Diode]) (by norm_num [Diode])).2.2

/-! ### Existence of the special functions -/

private theorem exists_w (x : ℝ) (hx : 0 ≤ x) : ∃ w, 0 ≤ w ∧ w * Real.exp w = x := by
  have hc : ContinuousOn (fun w : ℝ => w * Real.exp w) (Set.Icc 0 x) := by fun_prop
  have h1 : x ≤ x * Real.exp x := le_mul_of_one_le_right hx (Real.one_le_exp hx)
  obtain ⟨w, hw, he⟩ := intermediate_value_Icc hx hc (show x ∈ Set.Icc _ _ by simpa using ⟨hx, h1⟩)
  exact ⟨w, hw.1, he⟩

theorem exists_isLambertW : ∃ W, IsLambertW W := by
  refine ⟨fun x => match x with | fin x => if h : 0 ≤ x then fin (exists_w x h).choose else nan | y => y, ?_⟩
  intro x hx
  exact ⟨_, (exists_w x hx).choose_spec.1, by simp only [hx, dif_pos], (exists_w x hx).choose_spec.2⟩

private theorem exists_lw (l : ℝ) : ∃ w, 0 < w ∧ w + Real.log w = l := by
  obtain ⟨w, hw, he⟩ := exists_w (Real.exp l) (Real.exp_pos l).le
  have hw' : 0 < w := by
    rcases hw.lt_or_eq with h | h
    · exact h
    · rw [← h, zero_mul] at he; exact absurd he (Real.exp_pos l).ne
  refine ⟨w, hw', ?_⟩
  have := congrArg Real.log he
  rw [Real.log_mul hw'.ne' (Real.exp_pos w).ne', Real.log_exp, Real.log_exp] at this
  linarith

theorem exists_isLogLambertW : ∃ LW, IsLogLambertW LW :=
  ⟨fun x => match x with | fin l => fin (exists_lw l).choose | y => y,
    fun l => ⟨_, (exists_lw l).choose_spec.1, rfl, (exists_lw l).choose_spec.2⟩⟩

/-! ### Solutions -/

theorem gsh_fin {Rsh : Fl} {g : ℝ} (h : Conductance Rsh g) : fin 1 / Rsh = fin g := by
  rcases h with ⟨r, rfl, hr, rfl⟩ | ⟨rfl, rfl⟩
  · rw [fin_div hr]
  · rw [fin_div_pinf]

private theorem alg {IL I0 Rs g a v w k E : ℝ} (ha : 0 < a) (hR : 0 < Rs) (hk : 0 < k) (hk' : Rs * g + 1 = k)
    (hE : E = (Rs * (IL + I0) + v) / (a * k)) :
    (v + ((IL + I0 - v * g) / k - a / Rs * w) * Rs) / a = E - w ∧
    (IL + I0 - v * g) / k - a / Rs * w = IL - (w * a * k / Rs - I0 * 1) - (E - w) * a * g := by
  have hg : g = (k - 1) / Rs := by rw [← hk']; field_simp; ring
  rw [hE, hg]
  constructor
  · field_simp; ring
  · field_simp; ring

variable {IL I0 Rs g a : ℝ} {Rsh : Fl} {W LW : Fl → Fl} {ovf : Fl → Prop}

/-- **C69**: `_lambertw_i_from_v` returns, for every voltage, a current that solves the single diode equation
(both with and without series resistance, with any shunt). -/
theorem iFromV_solves (h : Sane IL I0 Rs g a) (hg : Conductance Rsh g) (hW : IsLambertW W) (v : ℝ) :
    ∃ i, lambertwIFromV W (fin v) (fin IL) (fin I0) (fin Rs) Rsh (fin a) = fin i ∧ Diode IL I0 Rs g a i v := by
  have ha := h.a
  have hI := h.I0
  rcases h.Rs.lt_or_eq with hR | hR
  · have hk : 0 < Rs * g + 1 := by have := mul_nonneg hR.le h.g; linarith
    have hk' : Rs * g + 1 ≠ 0 := hk.ne'
    have hak : a * (Rs * g + 1) ≠ 0 := (mul_pos ha hk).ne'
    have hx : 0 ≤ Rs * I0 / (a * (Rs * g + 1)) * Real.exp ((Rs * (IL + I0) + v) / (a * (Rs * g + 1))) := by
      have := mul_pos hR hI
      have := mul_pos ha hk
      positivity
    obtain ⟨w, hw, hWw, he⟩ := hW _ hx
    refine ⟨(IL + I0 - v * g) / (Rs * g + 1) - (a / Rs) * w, ?_, ?_⟩
    · simp only [lambertwIFromV, one_eq, gsh_fin hg, zero_eq, fin_lt, hR, if_true, fin_mul, fin_add, fin_sub, fin_div hak,
        fin_div hk.ne', fin_div hR.ne', exp_fin, hWw]
    · unfold Diode
      set E := (Rs * (IL + I0) + v) / (a * (Rs * g + 1)) with hE
      have e1 : (v + ((IL + I0 - v * g) / (Rs * g + 1) - a / Rs * w) * Rs) / a = E - w := by
        exact (alg ha hR hk rfl hE).1
      have e2 : v + ((IL + I0 - v * g) / (Rs * g + 1) - a / Rs * w) * Rs = (E - w) * a := by
        rw [← e1]; field_simp
      have e3 : I0 * Real.exp (E - w) = w * a * (Rs * g + 1) / Rs := by
        have hne := (Real.exp_pos w).ne'
        rw [Real.exp_sub, mul_div_assoc', div_eq_div_iff hne hR.ne']
        have h2 : w * Real.exp w * (a * (Rs * g + 1)) = Rs * I0 * Real.exp E := by rw [he]; field_simp
        linarith
      rw [e1, e2, mul_sub, e3]
      exact (alg ha hR hk rfl hE).2
  · subst hR
    refine ⟨IL - I0 * (Real.exp (v / a) - 1) - g * v, ?_, ?_⟩
    · simp only [lambertwIFromV, one_eq, gsh_fin hg, zero_eq, fin_lt, lt_irrefl, if_false, eqv_fin, if_true, fin_div ha.ne',
        expm1, fin_mul, fin_sub]
    · simp only [Diode, mul_zero, add_zero]
      ring

private theorem demo_sane : Sane 6 5e-10 0.5 (1 / 300) 1.5 := by constructor <;> norm_num
private theorem demo_sane0 : Sane 6 5e-10 0.5 0 1.5 := by constructor <;> norm_num
private theorem demo_cond : Conductance (fin 300) (1 / 300) := Or.inl ⟨300, rfl, by norm_num, by norm_num⟩
example := iFromV_solves demo_sane demo_cond exists_isLambertW.choose_spec 20

/-- **C69**: `_lambertw_v_from_i` returns, for every current of a shunted cell, a voltage that solves the single
diode equation, whether or not the exponential overflows. -/
theorem vFromI_solves (h : Sane IL I0 Rs g a) (hg : Conductance Rsh g) (hg0 : 0 < g) (hW : IsLambertW W)
    (hLW : IsLogLambertW LW) (i : ℝ) :
    ∃ v, lambertwVFromI W LW ovf (fin i) (fin IL) (fin I0) (fin Rs) Rsh (fin a) = fin v ∧ Diode IL I0 Rs g a i v := by
  have ha := h.a
  have hI := h.I0
  have hga : g * a ≠ 0 := (mul_pos hg0 ha).ne'
  set E := (-i + IL + I0) / (g * a) with hE
  have main : ∀ w, w * Real.exp w = I0 / (g * a) * Real.exp E →
      Diode IL I0 Rs g a i ((IL + I0 - i) / g - i * Rs - a * w) := by
    intro w he
    unfold Diode
    have e2 : (IL + I0 - i) / g - i * Rs - a * w + i * Rs = (E - w) * a := by rw [hE]; field_simp; ring
    have e3 : I0 * Real.exp (E - w) = w * g * a := by
      have hne := (Real.exp_pos w).ne'
      rw [Real.exp_sub, mul_div_assoc', div_eq_iff hne]
      have h2 : w * Real.exp w * (g * a) = I0 * Real.exp E := by rw [he]; field_simp
      linarith
    rw [e2, mul_div_assoc, div_self ha.ne', mul_one, mul_sub, e3, hE]
    field_simp
    ring
  by_cases ho : ovf (fin (I0 / (g * a) * Real.exp E))
  · obtain ⟨w, hw, hWw, he⟩ := hLW (Real.log I0 - Real.log g - Real.log a + E)
    refine ⟨_, ?_, main w ?_⟩
    · simp only [lambertwVFromI, one_eq, gsh_fin hg, zero_eq, fin_lt, hg0, if_true, fin_mul, fin_add, fin_sub, neg_fin,
        fin_div hga, fin_div hg0.ne', exp_fin, log_fin hI, log_fin hg0, log_fin ha, ← hE, ho, hWw]
    · have h3 : Real.log (w * Real.exp w) = Real.log (I0 / (g * a) * Real.exp E) := by
        rw [Real.log_mul hw.ne' (Real.exp_pos w).ne', Real.log_mul (div_ne_zero hI.ne' hga) (Real.exp_pos E).ne',
          Real.log_exp, Real.log_exp, Real.log_div hI.ne' hga, Real.log_mul hg0.ne' ha.ne']
        linarith
      have p1 : 0 < w * Real.exp w := mul_pos hw (Real.exp_pos w)
      have p2 : 0 < I0 / (g * a) * Real.exp E := mul_pos (div_pos hI (mul_pos hg0 ha)) (Real.exp_pos E)
      exact Real.log_injOn_pos p1 p2 h3
  · have hx : 0 ≤ I0 / (g * a) * Real.exp E := (mul_pos (div_pos hI (mul_pos hg0 ha)) (Real.exp_pos E)).le
    obtain ⟨w, hw, hWw, he⟩ := hW _ hx
    refine ⟨_, ?_, main w he⟩
    simp only [lambertwVFromI, one_eq, gsh_fin hg, zero_eq, fin_lt, hg0, if_true, fin_mul, fin_add, fin_sub, neg_fin,
      fin_div hga, fin_div hg0.ne', exp_fin, ← hE, ho, if_false, hWw]

example := vFromI_solves (ovf := fun _ => False) demo_sane demo_cond (by norm_num) exists_isLambertW.choose_spec exists_isLogLambertW.choose_spec 3

/-- **C69**: without shunt the voltage is finite exactly when a solution exists (the current is below
`IL + I0`), and then solves the equation; at that current it is minus infinity, beyond it NaN. -/
theorem vFromI_noShunt (h : Sane IL I0 Rs 0 a) (hg : Conductance Rsh 0) (i : ℝ) :
    (i < IL + I0 → ∃ v, lambertwVFromI W LW ovf (fin i) (fin IL) (fin I0) (fin Rs) Rsh (fin a) = fin v ∧
      Diode IL I0 Rs 0 a i v) ∧
    (IL + I0 ≤ i → ∀ v, ¬ Diode IL I0 Rs 0 a i v) ∧
    (i = IL + I0 → lambertwVFromI W LW ovf (fin i) (fin IL) (fin I0) (fin Rs) Rsh (fin a) = ninf) ∧
    (IL + I0 < i → lambertwVFromI W LW ovf (fin i) (fin IL) (fin I0) (fin Rs) Rsh (fin a) = nan) := by
  have ha := h.a
  have hI := h.I0
  have hq : 1 + (IL - i) / I0 = (IL + I0 - i) / I0 := by field_simp; ring
  have e0 : lambertwVFromI W LW ovf (fin i) (fin IL) (fin I0) (fin Rs) Rsh (fin a) =
      fin a * Fl.log (fin ((IL + I0 - i) / I0)) - fin (i * Rs) := by
    simp only [lambertwVFromI, one_eq, gsh_fin hg, zero_eq, fin_lt, lt_irrefl, if_false, eqv_fin, if_true, fin_sub,
      fin_div hI.ne', log1p, fin_add, hq, fin_mul]
  refine ⟨fun hi => ?_, fun hi v hd => ?_, fun hi => ?_, fun hi => ?_⟩
  · have hp : 0 < (IL + I0 - i) / I0 := div_pos (by linarith) hI
    refine ⟨a * Real.log ((IL + I0 - i) / I0) - i * Rs, by rw [e0, log_fin hp]; simp only [fin_mul, fin_sub], ?_⟩
    unfold Diode
    have e1 : a * Real.log ((IL + I0 - i) / I0) - i * Rs + i * Rs = a * Real.log ((IL + I0 - i) / I0) := by ring
    rw [e1, mul_div_right_comm, div_self ha.ne', one_mul, Real.exp_log hp]
    field_simp
    ring
  · unfold Diode at hd
    have := mul_pos hI (Real.exp_pos ((v + i * Rs) / a))
    linarith
  · have h1 : Fl.log (fin ((IL + I0 - i) / I0)) = ninf := by
      rw [show (IL + I0 - i) / I0 = 0 by rw [← hi]; simp]; simp [Fl.log]
    rw [e0, h1, fin_mul_ninf, infSign_neg (by linarith), ninf_sub_fin]
  · have h1 : Fl.log (fin ((IL + I0 - i) / I0)) = nan := by
      have : (IL + I0 - i) / I0 < 0 := div_neg_of_neg_of_pos (by linarith) hI
      simp only [Fl.log]
      simp [this]
    rw [e0, h1, mul_nan, nan_sub]

example (W LW ovf) := vFromI_noShunt (W := W) (LW := LW) (ovf := ovf) demo_sane0 (Or.inr ⟨rfl, rfl⟩) 3

/-- **C69**: the two functions are inverse to each other. -/
theorem roundtrip (h : Sane IL I0 Rs g a) (hg : Conductance Rsh g) (hW : IsLambertW W) (hLW : IsLogLambertW LW) (v : ℝ) :
    lambertwVFromI W LW ovf (lambertwIFromV W (fin v) (fin IL) (fin I0) (fin Rs) Rsh (fin a))
      (fin IL) (fin I0) (fin Rs) Rsh (fin a) = fin v := by
  obtain ⟨i, hi, hd⟩ := iFromV_solves h hg hW v
  rw [hi]
  rcases h.g.lt_or_eq with hg0 | hg0
  · obtain ⟨v', hv', hd'⟩ := vFromI_solves (ovf := ovf) h hg hg0 hW hLW i
    rw [hv', (diode_unique h hd' hd).2.1 rfl]
  · subst hg0
    have key := vFromI_noShunt (W := W) (LW := LW) (ovf := ovf) h hg i
    have hlt : i < IL + I0 := by
      by_contra hc
      exact key.2.1 (not_lt.mp hc) v hd
    obtain ⟨v', hv', hd'⟩ := key.1 hlt
    rw [hv', (diode_unique h hd' hd).2.1 rfl]

example := roundtrip (ovf := fun _ => False) demo_sane demo_cond exists_isLambertW.choose_spec exists_isLogLambertW.choose_spec 20

/-- **C69**: ... and in the other order. -/
theorem roundtrip' (h : Sane IL I0 Rs g a) (hg : Conductance Rsh g) (hg0 : 0 < g) (hW : IsLambertW W)
    (hLW : IsLogLambertW LW) (i : ℝ) :
    lambertwIFromV W (lambertwVFromI W LW ovf (fin i) (fin IL) (fin I0) (fin Rs) Rsh (fin a))
      (fin IL) (fin I0) (fin Rs) Rsh (fin a) = fin i := by
  obtain ⟨v, hv, hd⟩ := vFromI_solves (ovf := ovf) h hg hg0 hW hLW i
  rw [hv]
  obtain ⟨i', hi', hd'⟩ := iFromV_solves h hg hW v
  rw [hi', (diode_unique h hd' hd).1 rfl]

/-- **C69**: `method='lambertw'` and the Bishop methods agree: a root finder that returns a root makes
`bishop88_i_from_v` return the Lambert W current. -/
theorem agrees_with_bishop88 (h : Sane IL I0 Rs g a) (hg : Conductance Rsh g) (hW : IsLambertW W) {p : Params}
    (hm : Matches p (cell IL I0 Rs g a)) (s : Solvers) (hs : Roots (cell IL I0 Rs g a) s) (v : ℝ) (method : String)
    (y : Fl) (hy : bishop88IFromV s (fin v) p method = .ok y) :
    y = lambertwIFromV W (fin v) (fin IL) (fin I0) (fin Rs) Rsh (fin a) := by
  obtain ⟨i, hi, hd⟩ := iFromV_solves h hg hW v
  obtain ⟨i', hi', hd', -⟩ := iFromV_unique hm (physical_cell h) s hs v method y hy
  rw [hi, hi', (diode_unique h ((solves_cell ..).mp hd') hd).1 rfl]

/-- **C69**: negative or NaN series resistance gives NaN current; negative conductance gives NaN voltage. -/
theorem invalid_nan (V IL I0 Rs Rsh a : Fl) :
    (¬ (0 ≤ Rs) → lambertwIFromV W V IL I0 Rs Rsh a = nan) ∧
    (¬ (0 ≤ 1 / Rsh) → lambertwVFromI W LW ovf V IL I0 Rs Rsh a = nan) := by
  constructor
  · intro h
    have h1 : ¬ (0 < Rs) := by
      intro h'; apply h; cases Rs <;> simp_all <;> linarith
    have h2 : ¬ eqv 0 Rs := by
      intro h'; apply h; rw [← h'.2]; simp
    simp only [lambertwIFromV, h1, h2, if_false]
  · intro h
    have h1 : ¬ (0 < 1 / Rsh) := by
      intro h'; apply h; revert h'; generalize (1 : Fl) / Rsh = q; cases q <;> simp <;> intros <;> linarith
    have h2 : ¬ eqv 0 (1 / Rsh) := by
      intro h'; apply h; rw [← h'.2]; simp
    simp only [lambertwVFromI, h1, h2, if_false]

example : Sane 6 5e-10 0.5 (1 / 300) 1.5 ∧ Conductance (fin 300) (1 / 300) := by
  refine ⟨by constructor <;> norm_num, Or.inl ⟨300, rfl, by norm_num, by norm_num⟩⟩

example : Sane 6 5e-10 0 0 1.5 ∧ Conductance pinf 0 := ⟨by constructor <;> norm_num, Or.inr ⟨rfl, rfl⟩⟩

end Pvlib.Props.LambertW
end
