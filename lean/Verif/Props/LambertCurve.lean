import Verif.Props.LambertW
import Mathlib.Analysis.Convex.Continuous
import Mathlib.Analysis.Convex.SpecificFunctions.Basic

/-! # Properties C71, C72: the five (seven) points of a curve by Lambert W, and by Batzelis' formulas -/

noncomputable section
open scoped Classical
open Real
namespace Pvlib.Props.LambertW
open Fl Pvlib.SingleDiode Pvlib.Props.SingleDiode

variable {IL I0 Rs g a : ℝ} {Rsh : Fl} {W LW : Fl → Fl} {ovf : Fl → Prop}

/-- What `scipy.optimize.elementwise.find_minimum` promises: for a continuous function that falls strictly up to `z`
and rises strictly after it on the bracket, it returns `z` and the value there. -/
def MinimisesUnimodal (fmin : (Fl → Fl) → Fl × Fl × Fl → Fl × Fl) : Prop :=
  ∀ (f : Fl → Fl) (h : ℝ → ℝ) (l m r z : ℝ), l < m → m < r → z ∈ Set.Icc l r →
    (∀ x ∈ Set.Icc l r, f (fin x) = fin (h x)) → ContinuousOn h (Set.Icc l r) →
    StrictAntiOn h (Set.Icc l z) → StrictMonoOn h (Set.Icc z r) → fmin f (fin l, fin m, fin r) = (fin z, fin (h z))

private theorem unimodal_min {h : ℝ → ℝ} {l r z : ℝ} (hz : z ∈ Set.Icc l r) (h1 : StrictAntiOn h (Set.Icc l z))
    (h2 : StrictMonoOn h (Set.Icc z r)) {x : ℝ} (hx : x ∈ Set.Icc l r) (hne : x ≠ z) : h z < h x := by
  rcases lt_or_gt_of_ne hne with hlt | hgt
  · exact h1 ⟨hx.1, hlt.le⟩ ⟨hz.1, le_rfl⟩ hlt
  · exact h2 ⟨le_rfl, hz.2⟩ ⟨hgt.le, hx.2⟩ hgt

/-- Such a minimiser exists. -/
theorem exists_minimisesUnimodal : ∃ fmin, MinimisesUnimodal fmin := by
  refine ⟨fun f b => if h : ∃ z : ℝ, ∃ l r : ℝ, b.1 = fin l ∧ b.2.2 = fin r ∧ ∃ hf : ℝ → ℝ, z ∈ Set.Icc l r ∧
      (∀ x ∈ Set.Icc l r, f (fin x) = fin (hf x)) ∧ StrictAntiOn hf (Set.Icc l z) ∧ StrictMonoOn hf (Set.Icc z r)
      then (fin h.choose, f (fin h.choose)) else (nan, nan), ?_⟩
  intro f h l m r z hlm hmr hz hf hc ha hm
  have hex : ∃ z : ℝ, ∃ l' r' : ℝ, (fin l, fin m, fin r).1 = fin l' ∧ (fin l, fin m, fin r).2.2 = fin r' ∧
      ∃ hf : ℝ → ℝ, z ∈ Set.Icc l' r' ∧ (∀ x ∈ Set.Icc l' r', f (fin x) = fin (hf x)) ∧ StrictAntiOn hf (Set.Icc l' z) ∧
      StrictMonoOn hf (Set.Icc z r') := ⟨z, l, r, rfl, rfl, h, hz, hf, ha, hm⟩
  have key : hex.choose = z := by
    obtain ⟨l', r', e1, e2, h', hz', hf', ha', hm'⟩ := hex.choose_spec
    simp only [fin_inj] at e1 e2
    subst e1 e2
    by_contra hne
    have a1 := unimodal_min hz ha hm hz' hne
    have a2 := unimodal_min hz' ha' hm' hz (Ne.symm hne)
    have b1 : h z = h' z := by have := hf z hz; rw [hf' z hz, fin_inj] at this; exact this.symm
    have b2 : h hex.choose = h' hex.choose := by
      have := hf _ hz'; rw [hf' _ hz', fin_inj] at this; exact this.symm
    linarith
  simp only [dif_pos hex]
  rw [key, hf z hz]

/-! ### The curve in real numbers -/

/-- A real function all of whose points solve the diode equation. -/
private def IsCurve (IL I0 Rs g a : ℝ) (cur : ℝ → ℝ) : Prop := ∀ v, Diode IL I0 Rs g a (cur v) v

private theorem curve_anti (h : Sane IL I0 Rs g a) {cur : ℝ → ℝ} (hc : IsCurve IL I0 Rs g a cur) : StrictAnti cur :=
  fun _ _ hxy => (diode_unique h (hc _) (hc _)).2.2.mp hxy

private theorem curve_concave (h : Sane IL I0 Rs g a) {cur : ℝ → ℝ} (hc : IsCurve IL I0 Rs g a cur) :
    ConcaveOn ℝ Set.univ cur := by
  refine ⟨convex_univ, ?_⟩
  intro v1 _ v2 _ s t hs ht hst
  simp only [smul_eq_mul]
  have h1 := hc v1
  have h2 := hc v2
  have h3 := hc (s * v1 + t * v2)
  unfold Diode at h1 h2 h3
  by_contra hlt
  push Not at hlt
  set i3 := cur (s * v1 + t * v2) with hi3
  set x1 := (v1 + cur v1 * Rs) / a with hx1
  set x2 := (v2 + cur v2 * Rs) / a with hx2
  have hcx := convexOn_exp.2 (Set.mem_univ x1) (Set.mem_univ x2) hs ht hst
  simp only [smul_eq_mul] at hcx
  have hle : (s * v1 + t * v2 + i3 * Rs) ≤ s * (v1 + cur v1 * Rs) + t * (v2 + cur v2 * Rs) := by
    have := mul_le_mul_of_nonneg_right hlt.le h.Rs
    nlinarith
  have hle2 : (s * v1 + t * v2 + i3 * Rs) / a ≤ s * x1 + t * x2 := by
    rw [hx1, hx2, div_le_iff₀ h.a]
    have : (s * ((v1 + cur v1 * Rs) / a) + t * ((v2 + cur v2 * Rs) / a)) * a =
      s * (v1 + cur v1 * Rs) + t * (v2 + cur v2 * Rs) := by have := h.a; field_simp
    rw [this]; exact hle
  have he := Real.exp_le_exp.mpr hle2
  have m1 := mul_le_mul_of_nonneg_left (le_trans he hcx) h.I0.le
  have m2 := mul_le_mul_of_nonneg_right hle h.g
  have e1 := congrArg (s * ·) h1
  have e2 := congrArg (t * ·) h2
  have hIL : s * IL + t * IL = IL := by rw [← add_mul, hst, one_mul]
  have hI0 : s * I0 + t * I0 = I0 := by rw [← add_mul, hst, one_mul]
  nlinarith

private theorem curve_continuous (h : Sane IL I0 Rs g a) {cur : ℝ → ℝ} (hc : IsCurve IL I0 Rs g a cur) :
    Continuous cur := by
  have := (curve_concave h hc).continuousOn isOpen_univ
  exact continuousOn_univ.mp this

private theorem curve_isc (h : Sane IL I0 Rs g a) {i : ℝ} (hd : Diode IL I0 Rs g a i 0) : 0 ≤ i ∧ (0 < IL → 0 < i) ∧ i ≤ IL := by
  unfold Diode at hd
  rw [zero_add] at hd
  have hneg : i ≤ 0 → IL ≤ i := by
    intro hi
    have h1 : i * Rs ≤ 0 := mul_nonpos_of_nonpos_of_nonneg hi h.Rs
    have h2 : Real.exp (i * Rs / a) ≤ 1 := Real.exp_le_one_iff.mpr (div_nonpos_of_nonpos_of_nonneg h1 h.a.le)
    have h3 := mul_nonpos_of_nonneg_of_nonpos h.I0.le (show Real.exp (i * Rs / a) - 1 ≤ 0 by linarith)
    have h4 := mul_nonpos_of_nonpos_of_nonneg h1 h.g
    linarith
  have h0 : 0 ≤ i := by
    by_contra hc; push Not at hc
    have := hneg hc.le; linarith [h.IL]
  refine ⟨h0, fun hIL => ?_, ?_⟩
  · rcases h0.lt_or_eq with h' | h'
    · exact h'
    · have := hneg h'.symm.le; linarith
  · have h1 : 0 ≤ i * Rs := mul_nonneg h0 h.Rs
    have h2 : 1 ≤ Real.exp (i * Rs / a) := Real.one_le_exp (div_nonneg h1 h.a.le)
    have h3 := mul_nonneg h.I0.le (show 0 ≤ Real.exp (i * Rs / a) - 1 by linarith)
    have h4 := mul_nonneg h1 h.g
    linarith

private theorem curve_voc (h : Sane IL I0 Rs g a) {v : ℝ} (hd : Diode IL I0 Rs g a 0 v) : 0 ≤ v ∧ (0 < IL → 0 < v) := by
  unfold Diode at hd
  rw [zero_mul, add_zero] at hd
  have hneg : v ≤ 0 → IL ≤ 0 := by
    intro hi
    have h2 : Real.exp (v / a) ≤ 1 := Real.exp_le_one_iff.mpr (div_nonpos_of_nonpos_of_nonneg hi h.a.le)
    have h3 := mul_nonpos_of_nonneg_of_nonpos h.I0.le (show Real.exp (v / a) - 1 ≤ 0 by linarith)
    have h4 := mul_nonpos_of_nonpos_of_nonneg hi h.g
    linarith
  constructor
  · by_contra hc; push Not at hc
    have h2 : Real.exp (v / a) < 1 := Real.exp_lt_one_iff.mpr (div_neg_of_neg_of_pos hc h.a)
    have h3 := mul_neg_of_pos_of_neg h.I0 (show Real.exp (v / a) - 1 < 0 by linarith)
    have h4 := mul_nonpos_of_nonpos_of_nonneg hc.le h.g
    linarith [h.IL]
  · intro hIL
    by_contra hc; push Not at hc
    have := hneg hc; linarith

/-- Power is strictly concave at non-negative voltages. -/
private theorem power_concave (h : Sane IL I0 Rs g a) {cur : ℝ → ℝ} (hc : IsCurve IL I0 Rs g a cur) {x y z : ℝ}
    (hx : 0 ≤ x) (hxy : x < y) (hyz : y < z) : (z - y) * (x * cur x) + (y - x) * (z * cur z) < (z - x) * (y * cur y) := by
  have hpos : 0 < z - x := by linarith
  have hcc := (curve_concave h hc).2 (Set.mem_univ x) (Set.mem_univ z) (div_nonneg (show 0 ≤ z - y by linarith) hpos.le)
    (div_nonneg (show 0 ≤ y - x by linarith) hpos.le) (by field_simp; ring)
  have ey : (z - y) / (z - x) * x + (y - x) / (z - x) * z = y := by field_simp; ring
  simp only [smul_eq_mul] at hcc
  rw [ey] at hcc
  have hcc' : (z - y) * cur x + (y - x) * cur z ≤ (z - x) * cur y := by
    have := mul_le_mul_of_nonneg_left hcc hpos.le
    have e : (z - x) * ((z - y) / (z - x) * cur x + (y - x) / (z - x) * cur z) = (z - y) * cur x + (y - x) * cur z := by
      field_simp
    rwa [e] at this
  have hA := curve_anti h hc (show x < z by linarith)
  have m := mul_le_mul_of_nonneg_left hcc' (show 0 ≤ y by linarith)
  have hstrict := mul_pos (mul_pos (show 0 < z - y by linarith) (show 0 < y - x by linarith)) (sub_pos.mpr hA)
  nlinarith

/-- Power has exactly one hump between `-1` and the open-circuit voltage. -/
private theorem power_unimodal (h : Sane IL I0 Rs g a) (hIL : 0 < IL) {cur : ℝ → ℝ} (hc : IsCurve IL I0 Rs g a cur)
    {voc : ℝ} (hv : cur voc = 0) (hvp : 0 < voc) :
    ∃ z, 0 < z ∧ z < voc ∧ StrictAntiOn (fun v => -v * cur v) (Set.Icc (-1) z) ∧
      StrictMonoOn (fun v => -v * cur v) (Set.Icc z voc) ∧ ∀ v, v * cur v ≤ z * cur z := by
  have hanti := curve_anti h hc
  have hcont := curve_continuous h hc
  have hP : ContinuousOn (fun v => v * cur v) (Set.Icc 0 voc) := (continuous_id.mul hcont).continuousOn
  obtain ⟨z, hz, hmax⟩ := isCompact_Icc.exists_isMaxOn ⟨0, ⟨le_rfl, hvp.le⟩⟩ hP
  have hmax' : ∀ v ∈ Set.Icc 0 voc, v * cur v ≤ z * cur z := fun v hv => hmax hv
  have hpos : ∀ v, 0 < v → v < voc → 0 < v * cur v := fun v h1 h2 => by
    have := hanti h2
    rw [hv] at this
    exact mul_pos h1 this
  have hzP : 0 < z * cur z := lt_of_lt_of_le (hpos (voc / 2) (by linarith) (by linarith)) (hmax' _ ⟨by linarith, by linarith⟩)
  have hz0 : 0 < z := by
    rcases hz.1.lt_or_eq with h' | h'
    · exact h'
    · rw [← h', zero_mul] at hzP; exact absurd hzP (lt_irrefl 0)
  have hzv : z < voc := by
    rcases hz.2.lt_or_eq with h' | h'
    · exact h'
    · rw [h', hv, mul_zero] at hzP; exact absurd hzP (lt_irrefl 0)
  have left : ∀ x y, 0 ≤ x → x < y → y ≤ z → x * cur x < y * cur y := by
    intro x y hx hxy hyz
    rcases hyz.lt_or_eq with hyz | rfl
    · have := power_concave h hc hx hxy hyz
      have hm := hmax' y ⟨by linarith, by linarith⟩
      have := mul_le_mul_of_nonneg_left hm (show 0 ≤ y - x by linarith)
      have h3 : (z - y) * (x * cur x) < (z - y) * (y * cur y) := by nlinarith
      exact lt_of_mul_lt_mul_left h3 (by linarith)
    · rcases lt_or_ge (x * cur x) (y * cur y) with h' | h'
      · exact h'
      · have := power_concave h hc hx (show x < (x + y) / 2 by linarith) (show (x + y) / 2 < y by linarith)
        have hm := hmax' ((x + y) / 2) ⟨by linarith, by linarith⟩
        nlinarith
  have right : ∀ x y, z ≤ x → x < y → y ≤ voc → y * cur y < x * cur x := by
    intro x y hx hxy hyz
    rcases hx.lt_or_eq with hx | rfl
    · have := power_concave h hc hz0.le hx hxy
      have hm := hmax' x ⟨by linarith, by linarith⟩
      have := mul_le_mul_of_nonneg_left hm (show 0 ≤ y - x by linarith)
      have h3 : (x - z) * (y * cur y) < (x - z) * (x * cur x) := by nlinarith
      exact lt_of_mul_lt_mul_left h3 (by linarith)
    · rcases lt_or_ge (y * cur y) (z * cur z) with h' | h'
      · exact h'
      · have := power_concave h hc hz0.le (show z < (z + y) / 2 by linarith) (show (z + y) / 2 < y by linarith)
        have hm := hmax' ((z + y) / 2) ⟨by linarith, by linarith⟩
        nlinarith
  have hisc : 0 < cur 0 := (curve_isc h (hc 0)).2.1 hIL
  have negv : ∀ x, x < 0 → x * cur x < 0 := fun x hx => mul_neg_of_neg_of_pos hx (lt_trans hisc (hanti hx))
  refine ⟨z, hz0, hzv, ?_, ?_, ?_⟩
  · intro x hx y hy hxy
    show -y * cur y < -x * cur x
    rcases lt_or_ge x 0 with hx0 | hx0
    · rcases lt_or_ge y 0 with hy0 | hy0
      · have h1 := hanti hxy
        have h2 := lt_trans hisc (hanti hy0)
        nlinarith
      · have h1 := negv x hx0
        have h2 : 0 ≤ y * cur y := by
          rcases hy0.lt_or_eq with h' | h'
          · exact (hpos y h' (lt_of_le_of_lt hy.2 hzv)).le
          · rw [← h', zero_mul]
        linarith
    · have := left x y hx0 hxy hy.2
      linarith
  · intro x hx y hy hxy
    show -x * cur x < -y * cur y
    have := right x y hx.1 hxy hy.2
    linarith
  · intro v
    rcases lt_or_ge v 0 with h0 | h0
    · linarith [negv v h0]
    rcases le_or_gt v voc with h1 | h1
    · exact hmax' v ⟨h0, h1⟩
    · have h2 := hanti h1
      rw [hv] at h2
      have := mul_neg_of_pos_of_neg (show 0 < v by linarith) h2
      linarith

private theorem exists_curve (h : Sane IL I0 Rs g a) (hg : Conductance Rsh g) (hW : IsLambertW W) :
    ∃ cur : ℝ → ℝ, IsCurve IL I0 Rs g a cur ∧
      ∀ v, lambertwIFromV W (fin v) (fin IL) (fin I0) (fin Rs) Rsh (fin a) = fin (cur v) := by
  choose cur h1 h2 using iFromV_solves h hg hW
  exact ⟨cur, h2, h1⟩

private theorem exists_voc (h : Sane IL I0 Rs g a) (hg : Conductance Rsh g) (hW : IsLambertW W) (hLW : IsLogLambertW LW) :
    ∃ voc, lambertwVFromI W LW ovf (fin 0) (fin IL) (fin I0) (fin Rs) Rsh (fin a) = fin voc ∧ Diode IL I0 Rs g a 0 voc := by
  rcases h.g.lt_or_eq with hg0 | hg0
  · exact vFromI_solves h hg hg0 hW hLW 0
  · subst hg0
    exact (vFromI_noShunt h hg 0).1 (by linarith [h.IL, h.I0])

/-! ### C71 -/

/-- **C71**: the single-diode results by Lambert W in daylight.  Short circuit, open circuit, maximum power and the two
intermediate points all lie on the curve of the single diode equation, the maximum power point really is the maximum
over the whole curve, and the points are in the expected order. -/
theorem lambertw_points (h : Sane IL I0 Rs g a) (hIL : 0 < IL) (hg : Conductance Rsh g) (hW : IsLambertW W)
    (hLW : IsLogLambertW LW) {fmin} (hf : MinimisesUnimodal fmin) (n : Option ℕ) :
    ∃ isc voc imp vmp ix ixx : ℝ, ∃ o : Curve, lambertw W LW ovf fmin (fin IL) (fin I0) (fin Rs) Rsh (fin a) n = o ∧
      o.i_sc = fin isc ∧ o.v_oc = fin voc ∧ o.i_mp = fin imp ∧ o.v_mp = fin vmp ∧ o.p_mp = fin (vmp * imp) ∧
      o.i_x = fin ix ∧ o.i_xx = fin ixx ∧
      Diode IL I0 Rs g a isc 0 ∧ Diode IL I0 Rs g a 0 voc ∧ Diode IL I0 Rs g a imp vmp ∧
      Diode IL I0 Rs g a ix (voc / 2) ∧ Diode IL I0 Rs g a ixx ((voc + vmp) / 2) ∧
      (∀ i v, Diode IL I0 Rs g a i v → v * i ≤ vmp * imp) ∧
      0 < vmp ∧ vmp < voc ∧ 0 < ixx ∧ ixx < imp ∧ imp < isc ∧ 0 < ix ∧ ix < isc ∧ isc ≤ IL := by
  obtain ⟨cur, hc, hcur⟩ := exists_curve h hg hW
  obtain ⟨voc, hvoc, hdv⟩ := exists_voc (ovf := ovf) h hg hW hLW
  have hv0 : cur voc = 0 := (diode_unique h (hc voc) hdv).1 rfl
  have hvp := (curve_voc h hdv).2 hIL
  obtain ⟨z, hz0, hzv, hA, hM, hmax⟩ := power_unimodal h hIL hc hv0 hvp
  have hanti := curve_anti h hc
  have hnv : ¬ (voc < 0 ∧ (-1e-12 : ℝ) < voc) := by intro h'; linarith [h'.1]
  have hcont : ContinuousOn (fun v => -v * cur v) (Set.Icc (-1) voc) :=
    ((continuous_id.neg).mul (curve_continuous h hc)).continuousOn
  have hres := hf (fun v => -v * lambertwIFromV W v (fin IL) (fin I0) (fin Rs) Rsh (fin a)) (fun v => -v * cur v)
    (-1) (0.8 * voc) voc z (by linarith) (by linarith) ⟨by linarith, hzv.le⟩ (fun x _ => by rw [hcur x, neg_fin, fin_mul])
    hcont hA hM
  have e2 : (0.5 : ℝ) * voc = voc / 2 := by norm_num; ring
  have e3 : (0.5 : ℝ) * (voc + z) = (voc + z) / 2 := by norm_num; ring
  refine ⟨cur 0, voc, cur z, z, cur (voc / 2), cur ((voc + z) / 2), _, rfl, ?_⟩
  refine ⟨?_, ?_, ?_, ?_, ?_, ?_, ?_, hc 0, hdv, hc z, hc _, hc _, ?_, hz0, hzv, ?_, ?_, hanti hz0, ?_, hanti (by linarith), ?_⟩
  · simp only [lambertw, zero_eq, hcur]
  · simp only [lambertw, zero_eq, hvoc, fin_lt, hnv, if_false]
  · simp only [lambertw, zero_eq, hvoc, fin_lt, hnv, if_false, fin_mul, hres, hcur]
  · simp only [lambertw, zero_eq, hvoc, fin_lt, hnv, if_false, fin_mul, hres]
  · simp only [lambertw, zero_eq, hvoc, fin_lt, hnv, if_false, fin_mul, hres]
    congr 1; ring
  · simp only [lambertw, zero_eq, hvoc, fin_lt, hnv, if_false, fin_mul, hcur, e2]
  · simp only [lambertw, zero_eq, hvoc, fin_lt, hnv, if_false, fin_mul, fin_add, hres, hcur, e3]
  · intro i v hd
    rw [← (diode_unique h (hc v) hd).1 rfl]
    exact hmax v
  · have := hanti (show (voc + z) / 2 < voc by linarith)
    rwa [hv0] at this
  · exact hanti (by linarith)
  · have := hanti (show voc / 2 < voc by linarith)
    rwa [hv0] at this
  · exact (curve_isc h (hc 0)).2.2

private theorem demo_sane : Sane 6 5e-10 0.5 (1 / 300) 1.5 := by constructor <;> norm_num
private theorem demo_cond : Conductance (fin 300) (1 / 300) := Or.inl ⟨300, rfl, by norm_num, by norm_num⟩
example := lambertw_points (ovf := fun _ => False) demo_sane (by norm_num) demo_cond exists_isLambertW.choose_spec exists_isLogLambertW.choose_spec
  exists_minimisesUnimodal.choose_spec (some 100)

/-- **C71**: the maximum power point is unique. -/
theorem mpp_unique (h : Sane IL I0 Rs g a) (hIL : 0 < IL) {i v i' v' : ℝ} (hd : Diode IL I0 Rs g a i v)
    (hd' : Diode IL I0 Rs g a i' v') (hm : ∀ i v, Diode IL I0 Rs g a i v → i * v ≤ i' * v')
    (hm' : ∀ j w, Diode IL I0 Rs g a j w → j * w ≤ i * v) : i = i' ∧ v = v' := by
  obtain ⟨W, hW⟩ := exists_isLambertW
  obtain ⟨LW, hLW⟩ := exists_isLogLambertW
  obtain ⟨Rsh, hg⟩ : ∃ Rsh, Conductance Rsh g := by
    by_cases hg : g = 0
    · exact ⟨pinf, Or.inr ⟨rfl, hg⟩⟩
    · exact ⟨fin (1 / g), Or.inl ⟨1 / g, rfl, one_div_ne_zero hg, (one_div_one_div g).symm⟩⟩
  obtain ⟨cur, hc, hcur⟩ := exists_curve h hg hW
  obtain ⟨voc, hvoc, hdv⟩ := exists_voc (ovf := fun _ => False) h hg hW hLW
  have hv0 : cur voc = 0 := (diode_unique h (hc voc) hdv).1 rfl
  have hvp := (curve_voc h hdv).2 hIL
  obtain ⟨z, hz0, hzv, hA, hM, hmax⟩ := power_unimodal h hIL hc hv0 hvp
  have hanti := curve_anti h hc
  have hzp : 0 < z * cur z := by
    have := hanti hzv
    rw [hv0] at this
    exact mul_pos hz0 this
  have key : ∀ i v, Diode IL I0 Rs g a i v → z * cur z ≤ i * v → v = z := by
    intro i v hd hle
    have hi : cur v = i := (diode_unique h (hc v) hd).1 rfl
    subst hi
    have hv : 0 < v := by
      by_contra hv
      push Not at hv
      have : 0 < cur v := by have := hanti (show v < voc by linarith); rwa [hv0] at this
      have := mul_nonneg this.le (neg_nonneg.mpr hv)
      linarith
    have hv' : v < voc := by
      by_contra hv'
      push Not at hv'
      have : cur v ≤ 0 := by rw [← hv0]; exact hanti.antitone hv'
      have := mul_nonneg (neg_nonneg.mpr this) hv.le
      linarith
    rcases lt_trichotomy v z with hlt | heq | hgt
    · have := hA (show v ∈ Set.Icc (-1) z from ⟨by linarith, hlt.le⟩) (show z ∈ Set.Icc (-1) z from ⟨by linarith, le_rfl⟩) hlt
      simp only at this
      linarith
    · exact heq
    · have := hM (show z ∈ Set.Icc z voc from ⟨le_rfl, hzv.le⟩) (show v ∈ Set.Icc z voc from ⟨hgt.le, hv'.le⟩) hgt
      simp only at this
      linarith
  have e1 := key i v hd (by have := hm' _ _ (hc z); linarith)
  have e2 := key i' v' hd' (by have := hm _ _ (hc z); linarith)
  exact ⟨(diode_unique h hd hd').1 (e1.trans e2.symm), e1.trans e2.symm⟩

/-- **C71**: in the dark (`photocurrent = 0`) short-circuit current and open-circuit voltage are zero. -/
theorem lambertw_dark (h : Sane 0 I0 Rs g a) (hg : Conductance Rsh g) (hW : IsLambertW W)
    (hLW : IsLogLambertW LW) (fmin) (n : Option ℕ) :
    (lambertw W LW ovf fmin (fin 0) (fin I0) (fin Rs) Rsh (fin a) n).i_sc = fin 0 ∧
    (lambertw W LW ovf fmin (fin 0) (fin I0) (fin Rs) Rsh (fin a) n).v_oc = fin 0 := by
  obtain ⟨cur, hc, hcur⟩ := exists_curve h hg hW
  obtain ⟨voc, hvoc, hdv⟩ := exists_voc (ovf := ovf) h hg hW hLW
  have h0 : Diode 0 I0 Rs g a 0 0 := by simp [Diode]
  have e1 : cur 0 = 0 := (diode_unique h (hc 0) h0).1 rfl
  have e2 : voc = 0 := (diode_unique h hdv h0).2.1 rfl
  subst e2
  constructor
  · simp only [lambertw, zero_eq, hcur, e1]
  · simp [lambertw, hvoc]

example (fmin) := lambertw_dark (ovf := fun _ => False) (I0 := 5e-10) (Rs := 0.5) (g := 1 / 300) (a := 1.5) (by constructor <;> norm_num) demo_cond
  exists_isLambertW.choose_spec exists_isLogLambertW.choose_spec fmin none

/-- **C71**: the reported open-circuit voltage is never a tiny negative number (rounding in the dark), and when the
solver's value is not one, it is reported as is; no curve is returned unless a positive number of points is asked for. -/
theorem lambertw_tiny (fmin) (IL I0 Rs Rsh a : Fl) (n : Option ℕ) :
    (∀ v : ℝ, (lambertw W LW ovf fmin IL I0 Rs Rsh a n).v_oc = fin v → v ≤ -1e-12 ∨ 0 ≤ v) ∧
    (∀ v : ℝ, lambertwVFromI W LW ovf 0 IL I0 Rs Rsh a = fin v →
      (lambertw W LW ovf fmin IL I0 Rs Rsh a n).v_oc = if -1e-12 < v ∧ v < 0 then fin 0 else fin v) ∧
    ((lambertw W LW ovf fmin IL I0 Rs Rsh a n).ivcurve.isSome ↔ ∃ k, 0 < k ∧ n = some k) := by
  refine ⟨fun v hv => ?_, fun v hv => ?_, ?_⟩
  · simp only [lambertw] at hv
    split_ifs at hv with h
    · rw [zero_eq, fin_inj] at hv
      right; exact hv.le
    · rw [hv, zero_eq, fin_lt, fin_lt] at h
      by_contra hc
      push Not at hc
      exact h ⟨hc.2, hc.1⟩
  · rw [zero_eq] at hv
    simp only [lambertw, zero_eq, hv, fin_lt]
    by_cases h : -1e-12 < v ∧ v < 0
    · rw [if_pos h, if_pos ⟨h.2, h.1⟩]
    · rw [if_neg h, if_neg fun h' => h ⟨h'.2, h'.1⟩]
  · simp only [lambertw]
    rcases n with _ | _ | k
    · simp
    · simp
    · simp

private theorem linspace01_eq {n : ℕ} (hn : 2 ≤ n) :
    linspace01 n = (List.range n).map fun (k : ℕ) => fin ((k : ℝ) / ((n : ℝ) - 1)) := by
  have : n ≠ 1 := by omega
  simp only [linspace01, this, if_false]

/-- **C71**: the optional curve has the requested number of points, runs from short circuit to open circuit, has
strictly rising voltages and strictly falling currents, and every point lies on the curve. -/
theorem lambertw_ivcurve (h : Sane IL I0 Rs g a) (hIL : 0 < IL) (hg : Conductance Rsh g) (hW : IsLambertW W)
    (hLW : IsLogLambertW LW) (fmin) (n : ℕ) (hn : 2 ≤ n) :
    ∃ (l : List (ℝ × ℝ)) (isc voc : ℝ),
      (lambertw W LW ovf fmin (fin IL) (fin I0) (fin Rs) Rsh (fin a) (some n)).ivcurve =
        some (l.map fun p => (fin p.1, fin p.2)) ∧
      Diode IL I0 Rs g a isc 0 ∧ Diode IL I0 Rs g a 0 voc ∧
      l.length = n ∧ l.head? = some (isc, 0) ∧ l.getLast? = some (0, voc) ∧
      (∀ p ∈ l, Diode IL I0 Rs g a p.1 p.2) ∧ l.Pairwise (fun p q => p.2 < q.2 ∧ q.1 < p.1) := by
  obtain ⟨cur, hc, hcur⟩ := exists_curve h hg hW
  obtain ⟨voc, hvoc, hdv⟩ := exists_voc (ovf := ovf) h hg hW hLW
  have hv0 : cur voc = 0 := (diode_unique h (hc voc) hdv).1 rfl
  have hvp := (curve_voc h hdv).2 hIL
  have hanti := curve_anti h hc
  have hnv : ¬ (voc < 0 ∧ (-1e-12 : ℝ) < voc) := by intro h'; linarith [h'.1]
  have hn1 : (0 : ℝ) < (n : ℝ) - 1 := by
    have : (2 : ℝ) ≤ n := by exact_mod_cast hn
    linarith
  refine ⟨(List.range n).map fun (k : ℕ) => (cur (voc * ((k : ℝ) / ((n : ℝ) - 1))), voc * ((k : ℝ) / ((n : ℝ) - 1))),
    cur 0, voc, ?_, hc 0, hdv, by simp, ?_, ?_, ?_, ?_⟩
  · obtain ⟨m, rfl⟩ : ∃ m, n = m + 1 := ⟨n - 1, by omega⟩
    simp only [lambertw, zero_eq, hvoc, fin_lt, hnv, if_false, linspace01_eq hn, List.map_map, Option.some.injEq]
    apply List.map_congr_left
    intro k _
    simp only [Function.comp, fin_mul, hcur]
  · rw [List.head?_map, List.head?_range]
    simp [show n ≠ 0 by omega]
  · obtain ⟨m, rfl⟩ : ∃ m, n = m + 1 := ⟨n - 1, by omega⟩
    rw [List.range_succ, List.map_append]
    have hm : (m : ℝ) ≠ 0 := by
      have : 0 < m := by omega
      positivity
    have e : voc * ((m : ℝ) / (((m + 1 : ℕ) : ℝ) - 1)) = voc := by
      rw [Nat.cast_succ, add_sub_cancel_right, div_self hm, mul_one]
    simp only [List.map_cons, List.map_nil, List.getLast?_append, List.getLast?_singleton, Option.or_some, e, hv0]
    simp
  · intro p hp
    simp only [List.mem_map] at hp
    obtain ⟨k, _, rfl⟩ := hp
    exact hc _
  · rw [List.pairwise_map]
    refine List.pairwise_lt_range.imp ?_
    intro x y hxy
    have hlt : voc * ((x : ℝ) / ((n : ℝ) - 1)) < voc * ((y : ℝ) / ((n : ℝ) - 1)) :=
      mul_lt_mul_of_pos_left (div_lt_div_of_pos_right (by exact_mod_cast hxy) hn1) hvp
    exact ⟨hlt, hanti hlt⟩

example (fmin) := lambertw_ivcurve (ovf := fun _ => False) demo_sane (by norm_num) demo_cond exists_isLambertW.choose_spec exists_isLogLambertW.choose_spec
  fmin 100 (by norm_num)

/-! ### C72: Batzelis -/

/-- The diode equation without the `-1` (the approximation Batzelis starts from). -/
def Diode' (IL I0 Rs g a i v : ℝ) : Prop := i = IL - I0 * Real.exp ((v + i * Rs) / a) - (v + i * Rs) * g

private theorem div_rsh {Rsh : Fl} {g : ℝ} (h : Conductance Rsh g) (x : ℝ) : fin x / Rsh = fin (x * g) := by
  rcases h with ⟨r, rfl, hr, rfl⟩ | ⟨rfl, rfl⟩
  · rw [fin_div hr]; congr 1; ring
  · rw [fin_div_pinf, mul_zero]

/-- **C72**: `singlediode.batzelis` for positive light current: the maximum power point lies on the curve of the diode
equation without the `-1` term; without series and shunt losses it is the exact maximum of that curve (for a light
current of at least the saturation current); open circuit ignores the shunt, short circuit ignores the diode. -/
theorem batzelis_points (hI : 0 < IL) (hI0 : 0 < I0) (hR : 0 ≤ Rs) (hg0 : 0 ≤ g) (ha : 0 < a) (hg : Conductance Rsh g)
    (hW : IsLambertW W) :
    ∃ imp vmp isc voc : ℝ, batzelis W (fin IL) (fin I0) (fin Rs) Rsh (fin a) =
        ⟨fin (imp * vmp), fin imp, fin vmp, fin isc, fin voc⟩ ∧
      Diode' IL I0 Rs g a imp vmp ∧
      (I0 ≤ IL → Rs = 0 → g = 0 → ∀ i v, Diode' IL I0 Rs g a i v → i * v ≤ imp * vmp) ∧
      isc = IL - isc * Rs * g ∧ 0 < isc ∧ isc ≤ IL ∧
      IL = I0 * Real.exp (voc / a) := by
  obtain ⟨w, hw, hWw, he⟩ := hW (Real.exp 1 * IL / I0) (by positivity)
  have hwp : 0 < w := by
    rcases hw.lt_or_eq with h | h
    · exact h
    · rw [← h, zero_mul] at he
      have : 0 < Real.exp 1 * IL / I0 := by positivity
      linarith
  have hk : 0 < Rs * g + 1 := by have := mul_nonneg hR hg0; linarith
  have hk' : Rs * g + 1 ≠ 0 := hk.ne'
  have hexp : I0 * Real.exp (w - 1) = IL / w := by
    rw [Real.exp_sub]
    have := (Real.exp_pos 1).ne'
    have h2 : w * Real.exp w * I0 = Real.exp 1 * IL := by rw [he]; field_simp
    field_simp
    linarith
  set imp := IL * (1 - 1 / w) - a * (w - 1) * g with himp
  refine ⟨imp, a * (w - 1) - Rs * imp, IL / (Rs * g + 1), a * Real.log (IL / I0), ?_, ?_, ?_, ?_, div_pos hI hk, ?_, ?_⟩
  · have e1 : fin IL / (fin Rs / Rsh + 1) = fin (IL / (Rs * g + 1)) := by
      rw [div_rsh hg, one_eq, fin_add, fin_div hk']
    have e2 : fin (Real.exp 1) * fin IL / fin I0 = fin (Real.exp 1 * IL / I0) := by rw [fin_mul, fin_div hI0.ne']
    have e3 : fin a * (fin w - 1) / Rsh = fin (a * (w - 1) * g) := by
      simp only [one_eq, fin_sub, fin_mul, div_rsh hg]
    simp only [batzelis, e1, e2, hWw, e3]
    simp only [one_eq, zero_eq, fin_lt, hI, npwhere_true, fin_div hwp.ne', fin_sub, fin_mul, fin_div hI0.ne',
      log_fin (div_pos hI hI0), ← himp]
  · unfold Diode'
    have e : a * (w - 1) - Rs * imp + imp * Rs = a * (w - 1) := by ring
    rw [e, mul_div_right_comm, div_self ha.ne', one_mul, hexp, himp]
    field_simp
  · intro hle hR0 hg00 i v hd
    subst hR0 hg00
    unfold Diode' at hd
    simp only [mul_zero, add_zero, sub_zero] at hd
    simp only [himp, zero_mul, mul_zero, sub_zero]
    have hw1 : 1 ≤ w := by
      by_contra hc; push Not at hc
      have h1 : Real.exp w < Real.exp 1 := Real.exp_lt_exp.mpr hc
      have h2 : w * Real.exp w < 1 * Real.exp 1 := mul_lt_mul'' hc h1 hw (Real.exp_pos w).le
      rw [he, one_mul, div_lt_iff₀ hI0] at h2
      have := mul_le_mul_of_nonneg_left hle (Real.exp_pos 1).le
      linarith
    set x := v / a with hx
    have hv : v = a * x := by rw [hx]; field_simp
    have hpm : 0 ≤ IL * (1 - 1 / w) * (a * (w - 1)) := by
      have : 1 / w ≤ 1 := by rw [div_le_one hwp]; exact hw1
      exact mul_nonneg (mul_nonneg hI.le (by linarith)) (mul_nonneg ha.le (by linarith))
    rcases lt_or_ge x 0 with hx0 | hx0
    · have h1 : Real.exp x < 1 := Real.exp_lt_one_iff.mpr hx0
      have h2 := mul_lt_mul_of_pos_left h1 hI0
      have : i * v ≤ 0 := by
        rw [hv]
        exact mul_nonpos_of_nonneg_of_nonpos (by linarith) (mul_nonpos_of_nonneg_of_nonpos ha.le hx0.le)
      linarith
    · have ht := Real.add_one_le_exp (x - (w - 1))
      have h1 : I0 * Real.exp x = IL / w * Real.exp (x - (w - 1)) := by
        rw [← hexp, mul_assoc, ← Real.exp_add]; congr 2; ring
      have hq : 0 < IL / w := div_pos hI hwp
      have h2 : IL / w * (x - (w - 1) + 1) ≤ I0 * Real.exp x := by
        rw [h1]; exact mul_le_mul_of_nonneg_left ht hq.le
      have h3 : i ≤ IL / w * (2 * (w - 1) - x) := by
        have : IL = IL / w * w := by field_simp
        rw [hd]; nlinarith
      have h4 : i * v ≤ IL / w * (2 * (w - 1) - x) * (a * x) := by
        rw [hv]; exact mul_le_mul_of_nonneg_right h3 (mul_nonneg ha.le hx0)
      refine le_trans h4 ?_
      have e : IL * (1 - 1 / w) * (a * (w - 1)) = IL / w * a * (w - 1) ^ 2 := by field_simp
      rw [e]
      have := mul_nonneg (mul_nonneg hq.le ha.le) (sq_nonneg (x - (w - 1)))
      nlinarith
  · have : IL / (Rs * g + 1) * (Rs * g + 1) = IL := by field_simp
    linarith
  · rw [div_le_iff₀ hk]
    have := mul_nonneg hI.le (mul_nonneg hR hg0)
    linarith
  · rw [mul_div_right_comm, div_self ha.ne', one_mul, Real.exp_log (div_pos hI hI0)]; field_simp

example : (0 : ℝ) < 6 ∧ (0 : ℝ) < 5e-10 ∧ (5e-10 : ℝ) ≤ 6 ∧ Conductance (fin 300) (1 / 300) :=
  ⟨by norm_num, by norm_num, by norm_num, Or.inl ⟨300, rfl, by norm_num, by norm_num⟩⟩

/-- **C72**: without light (zero, negative or NaN light current) everything is zero. -/
theorem batzelis_dark (Iph Is Rs Rsh a : Fl) (h : ¬ 0 < Iph) :
    batzelis W Iph Is Rs Rsh a = ⟨0, 0, 0, 0, 0⟩ := by
  simp only [batzelis, h, npwhere_false]
  simp

example (W) := batzelis_dark (W := W) nan (fin 1e-10) (fin 0.3) (fin 300) (fin 1.5) (by simp)

end Pvlib.Props.LambertW
end
