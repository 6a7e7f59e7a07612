import Verif.Props.TrigValues
import Verif.Model.Bifacial
import Mathlib.Geometry.Euclidean.Angle.Unoriented.Basic
import Mathlib.Analysis.InnerProductSpace.PiL2
import Mathlib.Analysis.SpecialFunctions.Integrals.Basic
import Mathlib.MeasureTheory.Integral.IntervalIntegral.FundThmCalculus
import Mathlib.Analysis.Real.Pi.Bounds

/-! # C126, C127: view factors from a row of modules to sky and ground -/

noncomputable section
open Fl Classical
open scoped Real

namespace Pvlib.Props.BifacialRow

open Pvlib.Bifacial Pvlib.Tools

/-! ### Specification: rows in cross section -/

abbrev Plane := EuclideanSpace ℝ (Fin 2)

/-- Unit vector up the slant of a row tilted by `β` degrees that faces right. -/
def up (β : ℝ) : Plane := !₂[-Real.cos (β * (π / 180)), Real.sin (β * (π / 180))]

/-- The point a fraction `x` up the slant of row `k`: rows of unit width every `1 / gcr`. -/
def point (β gcr x : ℝ) (k : ℤ) : Plane := !₂[k * (1 / gcr), 0] + x • up β

/-- View factor of the directions within the angle `α` of the surface: Lambert's cosine law in two dimensions. -/
def viewFactor (α : ℝ) : ℝ := 1 / 2 * ∫ t in (0:ℝ)..α, Real.sin t

/-- From a point of row 0 the sky lies between the direction up the slant and the top of the next row. -/
def skyView (β gcr x : ℝ) : ℝ :=
  viewFactor (InnerProductGeometry.angle (up β) (point β gcr 1 1 - point β gcr x 0))

/-- From a point of row 0 the ground lies between the direction down the slant and the bottom of the next row. -/
def groundView (β gcr x : ℝ) : ℝ :=
  viewFactor (InnerProductGeometry.angle (-up β) (point β gcr 0 1 - point β gcr x 0))

/-! ### The polynomial -/

/-- `sqrt(a² + 2δac x + x²)` -/
def poly (β gcr y : ℝ) : ℝ := Real.sqrt (1 / gcr * (1 / gcr) + 2 * (1 / gcr) * Real.cos (β * (π / 180)) * y + y * y)

private theorem quad_nonneg (a c y : ℝ) (hc : |c| ≤ 1) : 0 ≤ a * a + 2 * a * c * y + y * y := by
  have := abs_le.mp hc
  nlinarith [sq_nonneg (a * c + y), mul_nonneg (mul_nonneg (sub_nonneg.mpr this.2) (by linarith : 0 ≤ 1 + c)) (sq_nonneg a)]

theorem vfPoly_fin (β gcr x δ : ℝ) (hg : 0 < gcr) (hδ : δ = 1 ∨ δ = -1) :
    vfPoly (fin β) (fin gcr) (fin x) (fin δ) = fin (poly β gcr (δ * x)) := by
  unfold vfPoly poly
  dsimp only
  rw [one_eq, fin_div hg.ne', cosd_fin, ofNat_eq]
  simp only [fin_mul, fin_add]
  have e : 1 / gcr * (1 / gcr) + 2 * δ * (1 / gcr) * Real.cos (β * (π / 180)) * x + x * x =
      1 / gcr * (1 / gcr) + 2 * (1 / gcr) * Real.cos (β * (π / 180)) * (δ * x) + δ * x * (δ * x) := by
    rcases hδ with rfl | rfl <;> ring
  rw [e, sqrt_fin (quad_nonneg _ _ _ (Real.abs_cos_le_one _))]

private theorem viewFactor_eq (α : ℝ) : viewFactor α = 1 / 2 * (1 - Real.cos α) := by
  unfold viewFactor; rw [integral_sin, Real.cos_zero]

theorem viewFactor_mem (α : ℝ) : 0 ≤ viewFactor α ∧ viewFactor α ≤ 1 := by
  rw [viewFactor_eq]
  have h1 := Real.neg_one_le_cos α
  have h2 := Real.cos_le_one α
  constructor <;> linarith

private theorem norm_up (β : ℝ) : ‖up β‖ = 1 := by
  unfold up
  rw [EuclideanSpace.norm_eq, Fin.sum_univ_two]
  simp

private theorem vec_top (β gcr x : ℝ) :
    point β gcr 1 1 - point β gcr x 0 = !₂[1 / gcr - (1 - x) * Real.cos (β * (π / 180)), (1 - x) * Real.sin (β * (π / 180))] := by
  unfold point up
  ext i
  fin_cases i <;> simp <;> ring

private theorem vec_bottom (β gcr x : ℝ) :
    point β gcr 0 1 - point β gcr x 0 = !₂[1 / gcr + x * Real.cos (β * (π / 180)), - (x * Real.sin (β * (π / 180)))] := by
  unfold point up
  ext i
  fin_cases i <;> simp

private theorem cos_top (β gcr x : ℝ) :
    Real.cos (InnerProductGeometry.angle (up β) (point β gcr 1 1 - point β gcr x 0)) =
      -((1 / gcr * Real.cos (β * (π / 180)) - (1 - x)) / poly β gcr (-(1 - x))) := by
  rw [InnerProductGeometry.cos_angle, norm_up, one_mul, vec_top]
  have hn : ‖(!₂[1 / gcr - (1 - x) * Real.cos (β * (π / 180)), (1 - x) * Real.sin (β * (π / 180))] : Plane)‖ =
      poly β gcr (-(1 - x)) := by
    rw [EuclideanSpace.norm_eq, Fin.sum_univ_two]
    unfold poly
    congr 1
    simp only [Real.norm_eq_abs, sq_abs]
    have := Real.sin_sq_add_cos_sq (β * (π / 180))
    simp
    nlinarith
  rw [hn, ← neg_div]
  congr 1
  have := Real.sin_sq_add_cos_sq (β * (π / 180))
  unfold up
  simp [PiLp.inner_apply, Fin.sum_univ_two]
  linear_combination (1 - x) * this

private theorem cos_bottom (β gcr x : ℝ) :
    Real.cos (InnerProductGeometry.angle (-up β) (point β gcr 0 1 - point β gcr x 0)) =
      (1 / gcr * Real.cos (β * (π / 180)) + x) / poly β gcr x := by
  rw [InnerProductGeometry.cos_angle, norm_neg, norm_up, one_mul, vec_bottom]
  have hn : ‖(!₂[1 / gcr + x * Real.cos (β * (π / 180)), - (x * Real.sin (β * (π / 180)))] : Plane)‖ =
      poly β gcr x := by
    rw [EuclideanSpace.norm_eq, Fin.sum_univ_two]
    unfold poly
    congr 1
    simp only [Real.norm_eq_abs, sq_abs]
    have := Real.sin_sq_add_cos_sq (β * (π / 180))
    simp
    nlinarith
  rw [hn]
  congr 1
  have := Real.sin_sq_add_cos_sq (β * (π / 180))
  unfold up
  simp [PiLp.inner_apply, Fin.sum_univ_two]
  linear_combination x * this

/-- The rows do not touch each other: the quantity under the root is positive. -/
theorem poly_pos (β gcr y : ℝ) (hg : 0 < gcr) (h : gcr * |y| < 1 ∨ Real.sin (β * (π / 180)) ≠ 0) : 0 < poly β gcr y := by
  unfold poly
  apply Real.sqrt_pos.mpr
  set c := Real.cos (β * (π / 180))
  have hs := Real.sin_sq_add_cos_sq (β * (π / 180))
  have ha : 0 < 1 / gcr := by positivity
  have e : 1 / gcr * (1 / gcr) + 2 * (1 / gcr) * c * y + y * y =
      (1 / gcr * c + y) ^ 2 + (1 / gcr * Real.sin (β * (π / 180))) ^ 2 := by nlinarith
  rcases h with h | h
  · have h1 : |y| < 1 / gcr := by rw [lt_div_iff₀ hg, mul_comm]; exact h
    have h2 := abs_lt.mp h1
    have hc := abs_le.mp (Real.abs_cos_le_one (β * (π / 180)))
    have e2 : 1 / gcr * (1 / gcr) + 2 * (1 / gcr) * c * y + y * y ≥ (1 / gcr - |y|) ^ 2 := by
      have : -(|y|) ≤ c * y := by
        have : |c * y| ≤ |y| := by
          rw [abs_mul]; exact mul_le_of_le_one_left (abs_nonneg y) (Real.abs_cos_le_one _)
        linarith [(abs_le.mp this).1]
      have h5 := mul_le_mul_of_nonneg_left this ha.le
      nlinarith [sq_abs y]
    have : 0 < (1 / gcr - |y|) ^ 2 := by
      apply sq_pos_of_pos; linarith
    linarith
  · rw [e]
    have : 0 < (1 / gcr * Real.sin (β * (π / 180))) ^ 2 := by positivity
    positivity

/-- **C126a.** The sky view factor at a point of a row is that of Lambert's law over the visible sky. -/
theorem row_sky_view (β gcr x : ℝ) (hg : 0 < gcr) (h : gcr * |1 - x| < 1 ∨ Real.sin (β * (π / 180)) ≠ 0) :
    vfRowSky2d (fin β) (fin gcr) (fin x) = fin (skyView β gcr x) := by
  have hp := poly_pos β gcr (-(1 - x)) hg (by rw [abs_neg]; exact h)
  unfold vfRowSky2d
  dsimp only
  rw [one_eq, fin_sub, neg_fin, vfPoly_fin _ _ _ _ hg (Or.inr rfl), fin_div hg.ne', cosd_fin, fin_mul, fin_sub, neg_one_mul,
    fin_div hp.ne', fin_add, Fl.ofScientific_eq, fin_mul, fin_inj]
  unfold skyView
  rw [viewFactor_eq, cos_top]
  norm_num

example := row_sky_view 30 0.4 0.5 (by norm_num) (.inl (by norm_num [abs_of_pos]))
example := row_sky_view 30 2 (-3) (by norm_num) (.inr (Spec.sinDeg_pos_of (by norm_num) (by norm_num)).ne')

/-- **C126b.** The ground view factor at a point of a row is that of Lambert's law over the visible ground. -/
theorem row_ground_view (β gcr x : ℝ) (hg : 0 < gcr) (h : gcr * |x| < 1 ∨ Real.sin (β * (π / 180)) ≠ 0) :
    vfRowGround2d (fin β) (fin gcr) (fin x) = fin (groundView β gcr x) := by
  have hp := poly_pos β gcr x hg h
  unfold vfRowGround2d
  dsimp only
  rw [one_eq, vfPoly_fin _ _ _ _ hg (Or.inl rfl), fin_div hg.ne', cosd_fin, fin_mul, fin_add, one_mul,
    fin_div hp.ne', fin_sub, Fl.ofScientific_eq, fin_mul, fin_inj]
  unfold groundView
  rw [viewFactor_eq, cos_bottom]
  norm_num

example := row_ground_view 30 0.4 0.5 (by norm_num) (.inl (by norm_num [abs_of_pos]))

theorem mono_aux (z w k : ℝ) (h : z ≤ w) (hz : 0 < z ^ 2 + k ^ 2) (hw : 0 < w ^ 2 + k ^ 2) :
    z / Real.sqrt (z ^ 2 + k ^ 2) ≤ w / Real.sqrt (w ^ 2 + k ^ 2) := by
  have hz' := Real.sqrt_pos.mpr hz
  have hw' := Real.sqrt_pos.mpr hw
  rw [div_le_div_iff₀ hz' hw']
  have sz := Real.sq_sqrt hz.le
  have sw := Real.sq_sqrt hw.le
  rcases le_total 0 z with h0 | h0
  · have hw0 : 0 ≤ w := h0.trans h
    refine abs_le_of_sq_le_sq' ?_ (by positivity) |>.2
    rw [mul_pow, mul_pow, sz, sw]
    nlinarith [mul_nonneg (sub_nonneg.mpr h) (add_nonneg h0 hw0), sq_nonneg k,
      mul_nonneg (sq_nonneg k) (mul_nonneg (sub_nonneg.mpr h) (add_nonneg h0 hw0))]
  · rcases le_total 0 w with h1 | h1
    · exact (mul_nonpos_of_nonpos_of_nonneg h0 hw'.le).trans (mul_nonneg h1 hz'.le)
    · have : (-w) * Real.sqrt (z ^ 2 + k ^ 2) ≤ (-z) * Real.sqrt (w ^ 2 + k ^ 2) := by
        refine abs_le_of_sq_le_sq' ?_ (mul_nonneg (by linarith) hw'.le) |>.2
        rw [mul_pow, mul_pow, sz, sw]
        nlinarith [mul_nonneg (sq_nonneg k) (mul_nonneg (sub_nonneg.mpr h) (by linarith : 0 ≤ -z + -w))]
      linarith

private theorem ratio_mono (β gcr y y' : ℝ) (h : y ≤ y') (h1 : 0 < poly β gcr y) (h2 : 0 < poly β gcr y') :
    (1 / gcr * Real.cos (β * (π / 180)) + y) / poly β gcr y ≤ (1 / gcr * Real.cos (β * (π / 180)) + y') / poly β gcr y' := by
  have hs := Real.sin_sq_add_cos_sq (β * (π / 180))
  have e : ∀ y : ℝ, poly β gcr y = Real.sqrt ((1 / gcr * Real.cos (β * (π / 180)) + y) ^ 2 +
      (1 / gcr * Real.sin (β * (π / 180))) ^ 2) := by
    intro y; unfold poly; congr 1; nlinarith
  rw [e] at h1 h2
  rw [e, e]
  exact mono_aux _ _ _ (by linarith) (Real.sqrt_pos.mp h1) (Real.sqrt_pos.mp h2)

/-- **C126c.** Both view factors lie in [0, 1] and together they do not exceed 1: the rest is the row in front. -/
theorem row_views_sum (β gcr x : ℝ) (hg : 0 < gcr)
    (h : (gcr * |x| < 1 ∧ gcr * |1 - x| < 1) ∨ Real.sin (β * (π / 180)) ≠ 0) :
    0 ≤ skyView β gcr x ∧ 0 ≤ groundView β gcr x ∧ skyView β gcr x + groundView β gcr x ≤ 1 := by
  refine ⟨(viewFactor_mem _).1, (viewFactor_mem _).1, ?_⟩
  have h1 := poly_pos β gcr x hg (h.imp_left And.left)
  have h2 := poly_pos β gcr (-(1 - x)) hg (by rw [abs_neg]; exact h.imp_left And.right)
  have hm := ratio_mono β gcr (-(1 - x)) x (by linarith) h2 h1
  unfold skyView groundView
  rw [viewFactor_eq, viewFactor_eq, cos_top, cos_bottom]
  rw [show 1 / gcr * Real.cos (β * (π / 180)) + -(1 - x) = 1 / gcr * Real.cos (β * (π / 180)) - (1 - x) by ring] at hm
  linarith

example := row_views_sum 30 0.4 0.5 (by norm_num) (.inr (Spec.sinDeg_pos_of (by norm_num) (by norm_num)).ne')

/-- Along the slant, upwards, more sky and less ground is seen. -/
theorem row_views_monotone (β gcr x y : ℝ) (hg : 0 < gcr) (hxy : x ≤ y) (hs : Real.sin (β * (π / 180)) ≠ 0) :
    skyView β gcr x ≤ skyView β gcr y ∧ groundView β gcr y ≤ groundView β gcr x := by
  have p := fun z => poly_pos β gcr z hg (Or.inr hs)
  have hm := ratio_mono β gcr (-(1 - x)) (-(1 - y)) (by linarith) (p _) (p _)
  have hm2 := ratio_mono β gcr x y hxy (p _) (p _)
  unfold skyView groundView
  rw [viewFactor_eq, viewFactor_eq, viewFactor_eq, viewFactor_eq, cos_top, cos_bottom, cos_top, cos_bottom]
  simp only [← sub_eq_add_neg] at hm
  constructor <;> linarith

example := row_views_monotone 30 0.4 0.2 0.5 (by norm_num) (by norm_num) (Spec.sinDeg_pos_of (by norm_num) (by norm_num)).ne'

/-- **C126d.** A tilted row whose view is limited by the masking angle `ψ` (the elevation of the top of the row in
front) sees the sky of a surface tilted by `β + ψ`: `(1 + cos(β + ψ)) / 2`. -/
theorem row_sky_masking (β gcr x : ℝ) (hg : 0 < gcr) (h : gcr * (1 - x) * Real.cos (β * (π / 180)) < 1) :
    ∃ ψ, Shading.maskingAngle (fin β) (fin gcr) (fin x) = fin ψ ∧
      vfRowSky2d (fin β) (fin gcr) (fin x) = fin (1 / 2 * (1 + Real.cos ((β + ψ) * (π / 180)))) := by
  set c := Real.cos (β * (π / 180)) with hc
  set s := Real.sin (β * (π / 180)) with hs
  have hcs : s ^ 2 + c ^ 2 = 1 := Real.sin_sq_add_cos_sq _
  have hden : 0 < 1 - gcr * (1 - x) * c := by linarith
  set q := gcr * (1 - x) * s / (1 - gcr * (1 - x) * c) with hq
  refine ⟨Real.arctan q * (180 / π), ?_, ?_⟩
  · unfold Shading.maskingAngle
    dsimp only
    rw [cosd_fin, sind_fin, one_eq, fin_sub, fin_mul, fin_mul, fin_mul, fin_sub, fin_div hden.ne', arctan_fin]
    simp [Fl.degrees, hq, hs]
  · have hp : 0 < poly β gcr (-(1 - x)) := by
      unfold poly
      apply Real.sqrt_pos.mpr
      have e : 1 / gcr * (1 / gcr) + 2 * (1 / gcr) * c * (-(1 - x)) + -(1 - x) * -(1 - x) =
          ((1 - gcr * (1 - x) * c) ^ 2 + (gcr * (1 - x) * s) ^ 2) / gcr ^ 2 := by
        field_simp
        have : s ^ 2 = 1 - c ^ 2 := by linarith
        ring_nf; rw [this]; ring
      rw [← hc, e]; positivity
    have hps : poly β gcr (-(1 - x)) ^ 2 = ((1 - gcr * (1 - x) * c) ^ 2 + (gcr * (1 - x) * s) ^ 2) / gcr ^ 2 := by
      unfold poly
      rw [Real.sq_sqrt (quad_nonneg _ _ _ (Real.abs_cos_le_one _)), ← hc]
      field_simp
      have : s ^ 2 = 1 - c ^ 2 := by linarith
      ring_nf; rw [this]; ring
    unfold vfRowSky2d
    dsimp only
    rw [one_eq, fin_sub, neg_fin, vfPoly_fin _ _ _ _ hg (Or.inr rfl), fin_div hg.ne', cosd_fin, fin_mul, fin_sub, neg_one_mul,
      fin_div hp.ne', fin_add, Fl.ofScientific_eq, fin_mul, fin_inj]
    have e1 : (β + Real.arctan q * (180 / π)) * (π / 180) = β * (π / 180) + Real.arctan q := by
      field_simp
    rw [e1, Real.cos_add, ← hc, ← hs, Real.cos_arctan, Real.sin_arctan]
    have e2 : Real.sqrt (1 + q ^ 2) = gcr * poly β gcr (-(1 - x)) / (1 - gcr * (1 - x) * c) := by
      rw [Real.sqrt_eq_iff_mul_self_eq (by positivity) (by positivity)]
      have : gcr * poly β gcr (-(1 - x)) / (1 - gcr * (1 - x) * c) * (gcr * poly β gcr (-(1 - x)) / (1 - gcr * (1 - x) * c)) =
          gcr ^ 2 * poly β gcr (-(1 - x)) ^ 2 / (1 - gcr * (1 - x) * c) ^ 2 := by
        rw [div_mul_div_comm, ← pow_two, ← pow_two, mul_pow]
      rw [this, hps, hq]
      field_simp
    rw [e2]
    have e3 : c * (1 / (gcr * poly β gcr (-(1 - x)) / (1 - gcr * (1 - x) * c))) -
        s * (q / (gcr * poly β gcr (-(1 - x)) / (1 - gcr * (1 - x) * c))) =
        (1 / gcr * c - (1 - x)) / poly β gcr (-(1 - x)) := by
      rw [hq]
      generalize hD : 1 - gcr * (1 - x) * c = D at *
      generalize poly β gcr (-(1 - x)) = P at *
      have hD0 : D ≠ 0 := hden.ne'
      have hP0 : P ≠ 0 := hp.ne'
      have hg0 : gcr ≠ 0 := hg.ne'
      have e4 : c * (1 / (gcr * P / D)) - s * (gcr * (1 - x) * s / D / (gcr * P / D)) = (c * D - gcr * (1 - x) * s ^ 2) / (gcr * P) := by
        field_simp
      have e5 : (1 / gcr * c - (1 - x)) / P = (c - gcr * (1 - x)) / (gcr * P) := by
        field_simp
      rw [e4, e5, ← hD]
      congr 1
      linear_combination (-gcr * (1 - x)) * hcs
    rw [e3]
    norm_num

example := row_sky_masking 30 0.4 0.5 (by norm_num) (by nlinarith [Real.cos_le_one (30 * (π / 180))])

/-! ### Integrals along a row -/

/-- Mean of a function over a segment of a row. -/
def meanOver (f : ℝ → ℝ) (x0 x1 : ℝ) : ℝ := 1 / (x1 - x0) * ∫ x in x0..x1, f x

theorem skyView_eq (β gcr x : ℝ) :
    skyView β gcr x = 1 / 2 * (1 + (1 / gcr * Real.cos (β * (π / 180)) - (1 - x)) / poly β gcr (-(1 - x))) := by
  unfold skyView; rw [viewFactor_eq, cos_top]; ring

theorem groundView_eq (β gcr x : ℝ) :
    groundView β gcr x = 1 / 2 * (1 - (1 / gcr * Real.cos (β * (π / 180)) + x) / poly β gcr x) := by
  unfold groundView; rw [viewFactor_eq, cos_bottom]

theorem skyView_continuous (β gcr : ℝ) (hp : ∀ x, 0 < poly β gcr (-(1 - x))) : Continuous (fun x => skyView β gcr x) := by
  have : (fun x => skyView β gcr x) =
      fun x => 1 / 2 * (1 + (1 / gcr * Real.cos (β * (π / 180)) - (1 - x)) / poly β gcr (-(1 - x))) := by
    funext x; exact skyView_eq β gcr x
  rw [this]
  have hpc : Continuous fun x => poly β gcr (-(1 - x)) := by unfold poly; fun_prop
  exact continuous_const.mul (continuous_const.add ((by fun_prop : Continuous fun x : ℝ =>
    1 / gcr * Real.cos (β * (π / 180)) - (1 - x)).div hpc fun x => (hp x).ne'))

private theorem hasDeriv_poly (β gcr x : ℝ) (hp : 0 < poly β gcr (-(1 - x))) :
    HasDerivAt (fun x => poly β gcr (-(1 - x))) ((1 / gcr * Real.cos (β * (π / 180)) - (1 - x)) / poly β gcr (-(1 - x))) x := by
  have h0 : 0 < 1 / gcr * (1 / gcr) + 2 * (1 / gcr) * Real.cos (β * (π / 180)) * (-(1 - x)) + -(1 - x) * -(1 - x) := by
    unfold poly at hp; exact Real.sqrt_pos.mp hp
  have h1 : HasDerivAt (fun x : ℝ => -(1 - x)) 1 x := by
    have e : (fun x : ℝ => -(1 - x)) = fun x => x - 1 := by funext x; ring
    rw [e]
    exact (hasDerivAt_id x).sub_const 1
  have h2 : HasDerivAt (fun x : ℝ => 1 / gcr * (1 / gcr) + 2 * (1 / gcr) * Real.cos (β * (π / 180)) * (-(1 - x)) + -(1 - x) * -(1 - x))
      (2 * (1 / gcr) * Real.cos (β * (π / 180)) * 1 + (1 * -(1 - x) + -(1 - x) * 1)) x :=
    ((h1.const_mul (2 * (1 / gcr) * Real.cos (β * (π / 180)))).const_add _).add (h1.mul h1)
  have h3 := h2.sqrt h0.ne'
  refine h3.congr_deriv ?_
  unfold poly
  have := Real.sqrt_pos.mpr h0
  field_simp
  ring

private theorem integral_sky (β gcr x0 x1 : ℝ) (hp : ∀ x, 0 < poly β gcr (-(1 - x))) :
    ∫ x in x0..x1, skyView β gcr x = 1 / 2 * ((x1 - x0) + (poly β gcr (-(1 - x1)) - poly β gcr (-(1 - x0)))) := by
  have hd : ∀ x ∈ Set.uIcc x0 x1, HasDerivAt (fun x => 1 / 2 * (x + poly β gcr (-(1 - x)))) (skyView β gcr x) x := by
    intro x _
    refine (((hasDerivAt_id x).add (hasDeriv_poly β gcr x (hp x))).const_mul (1 / 2)).congr_deriv ?_
    rw [skyView_eq]
  have hcont := skyView_continuous β gcr hp
  rw [intervalIntegral.integral_eq_sub_of_hasDerivAt hd (hcont.intervalIntegrable _ _)]
  ring

theorem integ_fin (β gcr x0 x1 : ℝ) (hg : 0 < gcr) (hu : 1e-6 ≤ |x1 - x0|) (hβ : 0 ≤ β) :
    vfRowSky2dInteg (fin β) (fin gcr) (fin x0) (fin x1) =
      fin (1 / 2 * (1 + 1 / |x1 - x0| * (poly β gcr (-(1 - x1)) - poly β gcr (-(1 - x0))))) := by
  have hu0 : 0 < |x1 - x0| := lt_of_lt_of_le (by norm_num) hu
  unfold vfRowSky2dInteg
  dsimp only
  have hn : ¬ ((fin β : Fl) < 0) := by rw [zero_eq, fin_lt]; exact not_lt.mpr hβ
  rw [npwhere_neg hn, npwhere_neg hn, fin_sub, abs_fin, one_eq, fin_sub, fin_sub, neg_fin, vfPoly_fin _ _ _ _ hg (Or.inr rfl),
    vfPoly_fin _ _ _ _ hg (Or.inr rfl), fin_div hu0.ne', fin_sub, fin_mul, fin_add, neg_one_mul, neg_one_mul]
  rw [npwhere_neg (by rw [Fl.ofScientific_eq, fin_lt]; exact not_lt.mpr hu), Fl.ofScientific_eq, fin_mul, fin_inj]
  norm_num

/-- **C127a.** For a segment of a row the sky view factor is the mean of those of its points. -/
theorem row_sky_mean (β gcr x0 x1 : ℝ) (hg : 0 < gcr) (hβ : 0 ≤ β) (hx : x0 + 1e-6 ≤ x1)
    (hs : Real.sin (β * (π / 180)) ≠ 0) :
    vfRowSky2dInteg (fin β) (fin gcr) (fin x0) (fin x1) = fin (meanOver (skyView β gcr) x0 x1) := by
  have hpos : 0 < x1 - x0 := by norm_num at hx ⊢; linarith
  rw [integ_fin β gcr x0 x1 hg (by rw [abs_of_pos hpos]; linarith) hβ, abs_of_pos hpos, fin_inj]
  unfold meanOver
  rw [integral_sky β gcr x0 x1 (fun x => poly_pos β gcr _ hg (Or.inr hs))]
  field_simp

example := row_sky_mean 30 0.4 0 1 (by norm_num) (by norm_num) (by norm_num) (Spec.sinDeg_pos_of (by norm_num) (by norm_num)).ne'

/-- A row rotated the other way sees the sky of the mirrored segment. -/
theorem row_sky_negative_tilt (β gcr x0 x1 : ℝ) (hβ : 0 < β) :
    vfRowSky2dInteg (fin (-β)) (fin gcr) (fin x0) (fin x1) =
      vfRowSky2dInteg (fin β) (fin gcr) (fin (1 - x1)) (fin (1 - x0)) := by
  have hv : ∀ x d : Fl, vfPoly (fin (-β)) (fin gcr) x d = vfPoly (fin β) (fin gcr) x d := by
    intro x d; unfold vfPoly; rw [cosd_fin, cosd_fin, neg_mul, Real.cos_neg]
  have hr : ∀ x : Fl, vfRowSky2d (fin (-β)) (fin gcr) x = vfRowSky2d (fin β) (fin gcr) x := by
    intro x; unfold vfRowSky2d; rw [hv, cosd_fin, cosd_fin, neg_mul, Real.cos_neg]
  unfold vfRowSky2dInteg
  dsimp only
  have h1 : (fin (-β) : Fl) < 0 := by rw [zero_eq, fin_lt]; linarith
  have h2 : ¬ ((fin β : Fl) < 0) := by rw [zero_eq, fin_lt]; linarith
  rw [npwhere_pos h1, npwhere_pos h1, npwhere_neg h2, npwhere_neg h2, hv, hv, hr]
  simp only [one_eq, fin_sub]

example := row_sky_negative_tilt 30 0.4 0.2 0.7 (by norm_num)

/-- **C127b.** The mean lies in [0, 1], and the segments of a row, weighted by their lengths, give the whole. -/
theorem row_sky_mean_range (β gcr x0 x1 : ℝ) (hg : 0 < gcr) (hx : x0 < x1) (hs : Real.sin (β * (π / 180)) ≠ 0) :
    0 ≤ meanOver (skyView β gcr) x0 x1 ∧ meanOver (skyView β gcr) x0 x1 ≤ 1 := by
  have hpos : 0 < x1 - x0 := by linarith
  unfold meanOver
  rw [integral_sky β gcr x0 x1 (fun x => poly_pos β gcr _ hg (Or.inr hs))]
  have hp := fun x => poly_pos β gcr x hg (Or.inr hs)
  have hle : |poly β gcr (-(1 - x1)) - poly β gcr (-(1 - x0))| ≤ x1 - x0 := by
    have key : ∀ y z : ℝ, y ≤ z → poly β gcr z - poly β gcr y ≤ z - y ∧ poly β gcr y - poly β gcr z ≤ z - y := by
      intro y z hyz
      have q := fun t => Real.sq_sqrt (quad_nonneg (1 / gcr) _ t (Real.abs_cos_le_one (β * (π / 180))))
      have qy : poly β gcr y ^ 2 = _ := q y
      have qz : poly β gcr z ^ 2 = _ := q z
      have hy := hp y
      have hz := hp z
      set A := 1 / gcr
      set c := Real.cos (β * (π / 180)) with hcdef
      have hc := abs_le.mp (Real.abs_cos_le_one (β * (π / 180)))
      rw [← hcdef] at hc
      have b1 : |A * c + y| ≤ poly β gcr y := by
        exact abs_le.mpr (abs_le_of_sq_le_sq' (by
          rw [qy]; nlinarith [mul_nonneg (mul_nonneg (sub_nonneg.mpr hc.2) (by linarith : 0 ≤ 1 + c)) (sq_nonneg A)]) hy.le)
      have b2 : |A * c + z| ≤ poly β gcr z := by
        exact abs_le.mpr (abs_le_of_sq_le_sq' (by
          rw [qz]; nlinarith [mul_nonneg (mul_nonneg (sub_nonneg.mpr hc.2) (by linarith : 0 ≤ 1 + c)) (sq_nonneg A)]) hz.le)
      have c1 := abs_le.mp b1
      have c2 := abs_le.mp b2
      have hdiff : (poly β gcr z - poly β gcr y) * (poly β gcr z + poly β gcr y) = (z - y) * ((A * c + z) + (A * c + y)) := by
        have : (poly β gcr z - poly β gcr y) * (poly β gcr z + poly β gcr y) = poly β gcr z ^ 2 - poly β gcr y ^ 2 := by ring
        rw [this, qy, qz]; ring
      constructor
      · by_contra hcon
        push Not at hcon
        have : (z - y) * ((A * c + z) + (A * c + y)) ≤ (z - y) * (poly β gcr z + poly β gcr y) :=
          mul_le_mul_of_nonneg_left (by linarith) (by linarith)
        have h3 : (z - y) * (poly β gcr z + poly β gcr y) < (poly β gcr z - poly β gcr y) * (poly β gcr z + poly β gcr y) :=
          mul_lt_mul_of_pos_right hcon (by linarith)
        linarith
      · by_contra hcon
        push Not at hcon
        have : (z - y) * (-(poly β gcr z + poly β gcr y)) ≤ (z - y) * ((A * c + z) + (A * c + y)) :=
          mul_le_mul_of_nonneg_left (by linarith) (by linarith)
        have h3 : (z - y) * (poly β gcr z + poly β gcr y) < (poly β gcr y - poly β gcr z) * (poly β gcr z + poly β gcr y) :=
          mul_lt_mul_of_pos_right hcon (by linarith)
        nlinarith
    have := key (-(1 - x0)) (-(1 - x1)) (by linarith)
    rw [abs_le]; constructor <;> linarith
  have h2 := abs_le.mp hle
  constructor
  · apply mul_nonneg (by positivity); linarith
  · rw [one_div, inv_mul_le_iff₀ hpos]; linarith

example := row_sky_mean_range 30 0.4 0 1 (by norm_num) (by norm_num) (Spec.sinDeg_pos_of (by norm_num) (by norm_num)).ne'

theorem row_sky_additive (β gcr x0 x1 x2 : ℝ) (hg : 0 < gcr) (h1 : x0 < x1) (h2 : x1 < x2)
    (hs : Real.sin (β * (π / 180)) ≠ 0) :
    (x1 - x0) * meanOver (skyView β gcr) x0 x1 + (x2 - x1) * meanOver (skyView β gcr) x1 x2 =
      (x2 - x0) * meanOver (skyView β gcr) x0 x2 := by
  have hp := fun x => poly_pos β gcr (-(1 - x)) hg (Or.inr hs)
  unfold meanOver
  rw [integral_sky β gcr _ _ hp, integral_sky β gcr _ _ hp, integral_sky β gcr _ _ hp]
  have : x1 - x0 ≠ 0 := by linarith
  have : x2 - x1 ≠ 0 := by linarith
  have : x2 - x0 ≠ 0 := by linarith
  field_simp
  ring

example := row_sky_additive 30 0.4 0 0.5 1 (by norm_num) (by norm_num) (by norm_num) (Spec.sinDeg_pos_of (by norm_num) (by norm_num)).ne'

/-- Finding: with the bounds of a segment exchanged the result is the complement of what is seen, not the same view
factor. -/
theorem row_sky_swapped (β gcr x0 x1 : ℝ) (hg : 0 < gcr) (hβ : 0 ≤ β) (hx : x0 + 1e-6 ≤ x1) :
    vfRowSky2dInteg (fin β) (fin gcr) (fin x1) (fin x0) =
      1 - vfRowSky2dInteg (fin β) (fin gcr) (fin x0) (fin x1) := by
  have hpos : 0 < x1 - x0 := by norm_num at hx ⊢; linarith
  rw [integ_fin β gcr x0 x1 hg (by rw [abs_of_pos hpos]; linarith) hβ,
    integ_fin β gcr x1 x0 hg (by rw [abs_sub_comm, abs_of_pos hpos]; linarith) hβ, abs_sub_comm x0 x1, one_eq, fin_sub, fin_inj]
  ring

/-- The default whole row at 90° with unit distance between rows: `(2 - √2)/2 … ` as expected from the crossed
strings `(1 + 1 - √2) / 2`. -/
example : vfRowSky2dInteg 90 1 = fin (1 - Real.sqrt 2 / 2) := by
  have h90 : (90:ℝ) * (π / 180) = π / 2 := by ring
  have := integ_fin 90 1 0 1 one_pos (by norm_num) (by norm_num)
  refine Eq.trans this ?_
  rw [fin_inj]
  unfold poly
  rw [h90, Real.cos_pi_div_two]
  norm_num
  ring

end Pvlib.Props.BifacialRow
end
