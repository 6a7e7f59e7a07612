import Verif.Props.PvDiode
import Mathlib.Analysis.Convex.SpecificFunctions.Basic

/-! # Property C232: the current-voltage curve is concave; what this says about its characteristic points -/

noncomputable section
open scoped Classical
namespace Pvlib.Props.FillFactor
open Fl Pvlib.SingleDiode Pvlib.PvFunctions Pvlib.Props.LambertW Pvlib.Props.SingleDiode Pvlib.Props.PvDiode

variable {IL I0 Rs g a : ℝ} {Rsh : Fl} {n : Numerics}

/-- **C232**: the curve of the single diode equation is strictly concave: at a voltage strictly between two others the
current lies strictly above the chord. -/
theorem diode_concave (h : Sane IL I0 Rs g a) {i1 v1 i2 v2 i s t : ℝ} (h1 : Diode IL I0 Rs g a i1 v1)
    (h2 : Diode IL I0 Rs g a i2 v2) (h3 : Diode IL I0 Rs g a i (s * v1 + t * v2)) (hv : v1 ≠ v2) (hs : 0 < s) (ht : 0 < t)
    (hst : s + t = 1) : s * i1 + t * i2 < i := by
  have hne : (v1 + i1 * Rs) / a ≠ (v2 + i2 * Rs) / a := by
    intro he
    have e : v1 + i1 * Rs = v2 + i2 * Rs := by
      exact (div_left_inj' h.a.ne').mp he
    have : i1 = i2 := by rw [h1, h2, e]
    rw [this] at e
    exact hv (by linarith)
  unfold Diode at h1 h2 h3
  by_contra hlt
  push Not at hlt
  set x1 := (v1 + i1 * Rs) / a with hx1
  set x2 := (v2 + i2 * Rs) / a with hx2
  have hcx := strictConvexOn_exp.2 (Set.mem_univ x1) (Set.mem_univ x2) hne hs ht hst
  simp only [smul_eq_mul] at hcx
  have hle : (s * v1 + t * v2 + i * Rs) ≤ s * (v1 + i1 * Rs) + t * (v2 + i2 * Rs) := by
    have := mul_le_mul_of_nonneg_right hlt h.Rs
    nlinarith
  have hle2 : (s * v1 + t * v2 + i * Rs) / a ≤ s * x1 + t * x2 := by
    rw [hx1, hx2, div_le_iff₀ h.a]
    have : (s * ((v1 + i1 * Rs) / a) + t * ((v2 + i2 * Rs) / a)) * a =
      s * (v1 + i1 * Rs) + t * (v2 + i2 * Rs) := by have := h.a; field_simp
    rw [this]; exact hle
  have he := Real.exp_le_exp.mpr hle2
  have m1 := mul_lt_mul_of_pos_left (lt_of_le_of_lt he hcx) h.I0
  have m2 := mul_le_mul_of_nonneg_right hle h.g
  have e1 := congrArg (s * ·) h1
  have e2 := congrArg (t * ·) h2
  have hIL : s * IL + t * IL = IL := by rw [← add_mul, hst, one_mul]
  have hI0 : s * I0 + t * I0 = I0 := by rw [← add_mul, hst, one_mul]
  nlinarith

private theorem demo_sane : Sane 6 5e-10 0.5 (1 / 300) 1.5 := by constructor <;> norm_num
private theorem demo_cond : Conductance (fin 300) (1 / 300) := Or.inl ⟨300, rfl, by norm_num, rfl⟩
example := fun i1 i2 i => diode_concave demo_sane (i1 := i1) (v1 := 10) (i2 := i2) (v2 := 20) (i := i) (s := 0.25) (t := 0.75)

/-- **C232**: `i_from_v`, by every method that returns: the current at a voltage between two others is above the chord
(so a module held at a mix of two voltages gives on average less current than at the mean voltage), and the power of a
ripple between two non-negative voltages is on average less than at the mean voltage. -/
theorem iFromV_concave (hn : Good n) (h : Sane IL I0 Rs g a) (hg : Conductance Rsh g) (hg0 : 0 < g)
    (hr : Roots (cell IL I0 Rs g a) n.s) {v1 v2 s t : ℝ} (hv : v1 < v2) (hs : 0 < s) (ht : 0 < t) (hst : s + t = 1)
    {m1 m2 m3 : String} {y1 y2 y : Fl} (h1 : iFromV n (fin v1) ⟨fin IL, fin I0, fin Rs, Rsh, fin a⟩ m1 = .ok y1)
    (h2 : iFromV n (fin v2) ⟨fin IL, fin I0, fin Rs, Rsh, fin a⟩ m2 = .ok y2)
    (h3 : iFromV n (fin (s * v1 + t * v2)) ⟨fin IL, fin I0, fin Rs, Rsh, fin a⟩ m3 = .ok y) :
    ∃ i1 i2 i : ℝ, y1 = fin i1 ∧ y2 = fin i2 ∧ y = fin i ∧ s * i1 + t * i2 < i ∧
      (0 ≤ v1 → s * (v1 * i1) + t * (v2 * i2) < (s * v1 + t * v2) * i) := by
  obtain ⟨i1, e1, d1⟩ := (from_agree hn h hg hg0 hr v1 m1 y1).1 h1
  obtain ⟨i2, e2, d2⟩ := (from_agree hn h hg hg0 hr v2 m2 y2).1 h2
  obtain ⟨i, e3, d3⟩ := (from_agree hn h hg hg0 hr _ m3 y).1 h3
  have hc := diode_concave h d1 d2 d3 hv.ne hs ht hst
  refine ⟨i1, i2, i, e1, e2, e3, hc, fun h0 => ?_⟩
  have hi : i2 < i1 := (diode_unique h d1 d2).2.2.mp hv
  have hpos : 0 < s * v1 + t * v2 := by
    have := mul_nonneg hs.le h0
    have := mul_pos ht (lt_of_le_of_lt h0 hv)
    linarith
  have hm := mul_lt_mul_of_pos_left hc hpos
  have hx : 0 < s * t * ((v2 - v1) * (i1 - i2)) := mul_pos (mul_pos hs ht) (mul_pos (by linarith) (by linarith))
  have ht' : t = 1 - s := by linarith
  subst ht'
  nlinarith

example := fun y1 y2 y => iFromV_concave exists_good_roots.choose_spec.1 demo_sane demo_cond (by norm_num)
  exists_good_roots.choose_spec.2 (v1 := 10) (v2 := 20) (s := 0.25) (t := 0.75) (by norm_num) (by norm_num) (by norm_num)
  (by norm_num) (m1 := "lambertw") (m2 := "newton") (m3 := "brentq") (y1 := y1) (y2 := y2) (y := y)

/-- **C232**: the characteristic points reported by `singlediode`, whichever the method, in daylight: the maximum power
point lies in the upper half of both ranges, `v_oc/2 ≤ v_mp < v_oc` and `i_sc/2 ≤ i_mp < i_sc`, hence a fill factor
between a quarter and one; the current at half the open-circuit voltage exceeds half the short-circuit current, and the
second intermediate current exceeds half of `i_mp`. -/
theorem fill_factor (hn : Good n) (h : Sane IL I0 Rs g a) (hIL : 0 < IL) (hg : Conductance Rsh g)
    (hr : Roots (cell IL I0 Rs g a) n.s) (method : String) (o : SevenPoints)
    (ho : singlediode n ⟨fin IL, fin I0, fin Rs, Rsh, fin a⟩ method = .ok o) :
    ∃ isc voc imp vmp ix ixx : ℝ, o.i_sc = fin isc ∧ o.v_oc = fin voc ∧ o.i_mp = fin imp ∧ o.v_mp = fin vmp ∧
      o.p_mp = fin (vmp * imp) ∧ o.i_x = fin ix ∧ o.i_xx = fin ixx ∧ 0 < isc ∧ 0 < voc ∧
      voc / 2 ≤ vmp ∧ vmp < voc ∧ isc / 2 ≤ imp ∧ imp < isc ∧
      isc * voc / 4 < vmp * imp ∧ vmp * imp < isc * voc ∧ isc / 2 < ix ∧ imp / 2 < ixx := by
  have ho' := singlediode_agree hn h hIL hg hr method o ho
  have el : pyLower "lambertw" = "lambertw" := by decide +kernel
  obtain ⟨isc, voc, imp, vmp, ix, ixx, c, hc, e1, e2, e3, e4, e5, e6, e7, d1, d2, d3, d4, d5, dm, p1, p2, p3, p4, p5, p6, p7, -⟩ :=
    lambertw_points (ovf := n.ovf) h hIL hg hn.W hn.LW hn.fmin none
  simp only [singlediode, el, if_true, hc, e1, e2, e3, e4, e5, e6, e7, Except.ok.injEq] at ho'
  have hsc : 0 < isc := by linarith
  have hvo : 0 < voc := by linarith
  have hmp : 0 < imp := by linarith
  -- a point of the curve at every voltage
  have pt : ∀ v, ∃ i, Diode IL I0 Rs g a i v := fun v => by
    obtain ⟨i, -, hd⟩ := iFromV_solves h hg hn.W v
    exact ⟨i, hd⟩
  have b1 : voc / 2 ≤ vmp := by
    by_contra hlt
    push Not at hlt
    -- at half the open-circuit voltage
    have hD : 0 < voc - vmp := by linarith
    set e := (voc - 2 * vmp) / 2 with he
    have he0 : 0 < e := by linarith
    have hs : 0 < (voc - vmp - e) / (voc - vmp) := div_pos (by linarith) hD
    have ht : 0 < e / (voc - vmp) := div_pos he0 hD
    obtain ⟨i, hi⟩ := pt ((voc - vmp - e) / (voc - vmp) * vmp + e / (voc - vmp) * voc)
    have hc1 := diode_concave h d3 d2 hi p2.ne hs ht (by field_simp; ring)
    have hm := dm _ _ hi
    have ev : (voc - vmp - e) / (voc - vmp) * vmp + e / (voc - vmp) * voc = vmp + e := by field_simp; ring
    rw [ev] at hm
    rw [mul_zero, add_zero, div_mul_eq_mul_div, div_lt_iff₀ hD] at hc1
    have a1 : (vmp + e) * ((voc - vmp - e) * imp) < (vmp + e) * (i * (voc - vmp)) := mul_lt_mul_of_pos_left hc1 (by linarith)
    have a2 := mul_le_mul_of_nonneg_right hm hD.le
    have a3 : e * (voc - 2 * vmp - e) * imp < 0 := by nlinarith
    have a4 : 0 < e * (voc - 2 * vmp - e) * imp := mul_pos (mul_pos he0 (by linarith)) hmp
    linarith
  have b2 : isc / 2 ≤ imp := by
    by_contra hlt
    push Not at hlt
    have hD : 0 < isc - imp := by linarith
    set e := vmp * (isc - 2 * imp) / (2 * (isc - imp)) with he
    have he0 : 0 < e := div_pos (mul_pos p1 (by linarith)) (by linarith)
    have hed : e * (2 * (isc - imp)) = vmp * (isc - 2 * imp) := by rw [he]; field_simp
    have hev : e < vmp := by
      rw [he, div_lt_iff₀ (by linarith)]
      nlinarith
    have hs : 0 < e / vmp := div_pos he0 p1
    have ht : 0 < (vmp - e) / vmp := div_pos (by linarith) p1
    obtain ⟨i, hi⟩ := pt (e / vmp * 0 + (vmp - e) / vmp * vmp)
    have hc1 := diode_concave h d1 d3 hi p1.ne hs ht (by field_simp; ring)
    have hm := dm _ _ hi
    have ev : e / vmp * 0 + (vmp - e) / vmp * vmp = vmp - e := by field_simp; ring
    rw [ev] at hm
    have hc2 : e * isc + (vmp - e) * imp < i * vmp := by
      have := mul_lt_mul_of_pos_right hc1 p1
      have ee : (e / vmp * isc + (vmp - e) / vmp * imp) * vmp = e * isc + (vmp - e) * imp := by field_simp
      rwa [ee] at this
    have a1 := mul_lt_mul_of_pos_left hc2 (show 0 < vmp - e by linarith)
    have a2 := mul_le_mul_of_nonneg_right hm p1.le
    have a3 : e * (vmp * (isc - 2 * imp) - e * (isc - imp)) < 0 := by nlinarith
    have a4 : 0 < e * (vmp * (isc - 2 * imp) - e * (isc - imp)) := by
      apply mul_pos he0
      have := mul_pos he0 hD
      linarith
    linarith
  have b3 : isc / 2 < ix := by
    have e : (1 / 2 : ℝ) * 0 + 1 / 2 * voc = voc / 2 := by ring
    have := diode_concave h d1 d2 (by rw [e]; exact d4) hvo.ne (show (0 : ℝ) < 1 / 2 by norm_num) (show (0 : ℝ) < 1 / 2 by norm_num)
      (by norm_num)
    linarith
  have b4 : imp / 2 < ixx := by
    have e : (1 / 2 : ℝ) * vmp + 1 / 2 * voc = (voc + vmp) / 2 := by ring
    have := diode_concave h d3 d2 (by rw [e]; exact d5) p2.ne (show (0 : ℝ) < 1 / 2 by norm_num) (show (0 : ℝ) < 1 / 2 by norm_num)
      (by norm_num)
    linarith
  have b5 : isc * voc / 4 < vmp * imp := by
    have hm := dm _ _ d4
    have := mul_lt_mul_of_pos_left b3 (show 0 < voc / 2 by linarith)
    nlinarith
  have b6 : vmp * imp < isc * voc := by
    have := mul_lt_mul'' p2 p5 p1.le hmp.le
    linarith
  subst ho'
  exact ⟨isc, voc, imp, vmp, ix, ixx, rfl, rfl, rfl, rfl, rfl, rfl, rfl, hsc, hvo, b1, p2, b2, p5, b5, b6, b3, b4⟩

example := fill_factor exists_good_roots.choose_spec.1 demo_sane (by norm_num) demo_cond exists_good_roots.choose_spec.2 "newton"

end Pvlib.Props.FillFactor
