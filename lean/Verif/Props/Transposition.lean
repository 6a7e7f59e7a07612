import Verif.Props.TrigValues
import Verif.Props.Geometry
import Verif.Proofs.Airmass
import Mathlib.Analysis.Real.Pi.Bounds

/-!
# Transposition models and plane-of-array totals (C19–C22)
-/

noncomputable section
open scoped Classical
open Real
namespace Pvlib.Props.Transposition
open Fl Pvlib.Irradiance Pvlib.Tools Pvlib.Spec Pvlib.Props.Geometry

/-! ## C19: totals add up -/

/-- C19(a). Whatever the model string, table, spline and inputs: when `get_total_irradiance`
returns, its columns satisfy the two sums, the sky column is what `get_sky_diffuse` returned, the
ground column is what `get_ground_diffuse` returned, and `poa_direct` is never negative. -/
theorem total_sums (tbl : String → Option PerezTable) (f : ℕ → ℕ → Fl → Fl)
    (tilt az zen saz dni ghi dhi : Fl) (dni_extra airmass : Option Fl) (albedo : Fl)
    (surface_type : Option String) (model model_perez : String) (dc : Bool) (p : Poa)
    (h : getTotalIrradiance tbl f tilt az zen saz dni ghi dhi dni_extra airmass albedo surface_type
      model model_perez dc = .ok p) :
    p.poa_global = p.poa_direct + p.poa_diffuse ∧
    p.poa_diffuse = p.poa_sky_diffuse + p.poa_ground_diffuse ∧
    (p.poa_direct = nan ∨ 0 ≤ p.poa_direct) ∧
    (∃ sky, getSkyDiffuse tbl f tilt az zen saz dni ghi dhi dni_extra airmass model model_perez dc
        = .ok sky ∧ p.poa_sky_diffuse = sky.poa_sky_diffuse ∧ p.components = sky.components) ∧
    groundDiffuse tilt ghi albedo surface_type = .ok p.poa_ground_diffuse := by
  unfold getTotalIrradiance at h
  cases hs : getSkyDiffuse tbl f tilt az zen saz dni ghi dhi dni_extra airmass model model_perez dc with
  | error e => rw [hs] at h; cases h
  | ok sky =>
    cases hg : groundDiffuse tilt ghi albedo surface_type with
    | error e => rw [hs, hg] at h; cases h
    | ok g =>
      rw [hs, hg] at h
      cases h
      refine ⟨rfl, rfl, ?_, ⟨sky, rfl, rfl, rfl⟩, rfl⟩
      simp only [poaComponents]
      by_cases hn : maximum (dni * Fl.cos (radians (aoi tilt az zen saz))) 0 = nan
      · exact Or.inl hn
      · exact Or.inr (le_maximum_right hn)

/-- C19(b). For real angles and dni, `poa_direct` is the beam component. -/
theorem total_direct (tbl : String → Option PerezTable) (f : ℕ → ℕ → Fl → Fl)
    (tilt az zen saz dni : ℝ) (ghi dhi : Fl) (dni_extra airmass : Option Fl) (albedo : Fl)
    (surface_type : Option String) (model model_perez : String) (dc : Bool) (p : Poa)
    (h : getTotalIrradiance tbl f (fin tilt) (fin az) (fin zen) (fin saz) (fin dni) ghi dhi dni_extra
      airmass albedo surface_type model model_perez dc = .ok p) :
    p.poa_direct = fin (max (dni * dot (dirVec tilt az) (dirVec zen saz)) 0) := by
  unfold getTotalIrradiance at h
  cases hs : getSkyDiffuse tbl f (fin tilt) (fin az) (fin zen) (fin saz) (fin dni) ghi dhi dni_extra
      airmass model model_perez dc with
  | error e => rw [hs] at h; cases h
  | ok sky =>
    cases hg : groundDiffuse (fin tilt) ghi albedo surface_type with
    | error e => rw [hs, hg] at h; cases h
    | ok g =>
      rw [hs, hg] at h
      cases h
      rw [beam_eq_poa_direct, beam_value]

/-- The names `get_sky_diffuse` accepts (after lower-casing). -/
def knownModels : List String :=
  ["isotropic", "klucher", "haydavies", "reindl", "king", "perez", "perez-driesse"]
/-- The models that need `dni_extra`. -/
def needsExtra : List String := ["haydavies", "reindl", "perez", "perez-driesse"]

/-- C19(c). When `get_sky_diffuse` succeeds: exactly for a known model name, with `dni_extra` given if
the model needs it, a known Perez set if the model is perez, and no components requested from
klucher or king. -/
theorem skyDiffuse_ok_iff (tbl : String → Option PerezTable) (f : ℕ → ℕ → Fl → Fl)
    (tilt az zen saz dni ghi dhi : Fl) (dni_extra airmass : Option Fl)
    (model model_perez : String) (rc : Bool) :
    (∃ s, getSkyDiffuse tbl f tilt az zen saz dni ghi dhi dni_extra airmass model model_perez rc
        = .ok s) ↔
      pyLower model ∈ knownModels ∧
      (pyLower model ∈ needsExtra → dni_extra ≠ none) ∧
      (pyLower model = "perez" → tbl model_perez ≠ none) ∧
      (rc = true → pyLower model ≠ "klucher" ∧ pyLower model ≠ "king") := by
  have key : ∀ m : String, m = "isotropic" ∨ m = "klucher" ∨ m = "haydavies" ∨ m = "reindl" ∨
      m = "king" ∨ m = "perez" ∨ m = "perez-driesse" ∨ m ∉ knownModels := by
    intro m; simp [knownModels]; tauto
  rcases key (pyLower model) with h | h | h | h | h | h | h | h
  case inr.inr.inr.inr.inr.inr.inr =>
    simp only [h, false_and, iff_false, not_exists]
    simp only [knownModels, List.mem_cons, List.not_mem_nil, or_false, not_or] at h
    obtain ⟨h1, h2, h3, h4, h5, h6, h7⟩ := h
    intro s hs
    simp [getSkyDiffuse, h1, h2, h3, h4, h5, h6, h7] at hs
  all_goals
    simp only [getSkyDiffuse, h, knownModels, needsExtra]
    cases dni_extra <;> cases rc <;> simp
  all_goals
    cases tbl model_perez <;> simp

/-- C19(d). Otherwise it raises `ValueError` (or `KeyError` for an unknown Perez set). -/
theorem skyDiffuse_error (tbl : String → Option PerezTable) (f : ℕ → ℕ → Fl → Fl)
    (tilt az zen saz dni ghi dhi : Fl) (dni_extra airmass : Option Fl)
    (model model_perez : String) (rc : Bool) (e : PyErr)
    (h : getSkyDiffuse tbl f tilt az zen saz dni ghi dhi dni_extra airmass model model_perez rc
        = .error e) :
    e = .valueError ∨ (e = .keyError model_perez ∧ pyLower model = "perez") := by
  simp only [getSkyDiffuse] at h
  split_ifs at h <;> simp_all <;> (cases ht : tbl model_perez <;> simp_all)

example (tbl : String → Option PerezTable) :=
  skyDiffuse_error tbl pdF (fin 30) (fin 180) (fin 40) (fin 170) (fin 800) (fin 700) (fin 100) none none "sandia" "" true .valueError
    (by simp [getSkyDiffuse, show pyLower "sandia" = "sandia" by decide])

/-! ## C20: components sum to the total -/

/-- Sum of the returned component columns. -/
def componentSum (s : Sky) : Fl := Fl.sum (s.components.map Prod.snd)

theorem isotropic_components (tilt dhi : Fl) :
    componentSum (isotropic tilt dhi) = (isotropic tilt dhi).poa_sky_diffuse := by
  simp [componentSum, isotropic, Fl.sum, zero_add']

theorem haydavies_components (tilt az dhi dni dni_extra zen saz : Fl) :
    componentSum (haydavies tilt az dhi dni dni_extra zen saz) =
      (haydavies tilt az dhi dni dni_extra zen saz).poa_sky_diffuse := by
  simp [componentSum, haydavies, haydaviesRb, Fl.sum, zero_add']

theorem reindl_components (tilt az dhi dni ghi dni_extra zen saz : ℝ) (he : dni_extra ≠ 0) :
    componentSum (reindl (fin tilt) (fin az) (fin dhi) (fin dni) (fin ghi) (fin dni_extra) (fin zen)
        (fin saz)) =
      (reindl (fin tilt) (fin az) (fin dhi) (fin dni) (fin ghi) (fin dni_extra) (fin zen)
        (fin saz)).poa_sky_diffuse := by
  have hb : max (Real.cos (zen * (π / 180))) 0.01745 ≠ 0 := by
    have := le_max_right (Real.cos (zen * (π / 180))) 0.01745
    intro h; rw [h] at this; norm_num at this
  by_cases hg : ghi = 0
  · simp [componentSum, reindl, Fl.sum, zero_add', projectionRatio, aoiProjection_dot, hb, he, hg, npwhere]
    ring
  · by_cases hs : 0 ≤ max (dni * Real.cos (zen * (π / 180))) 0 / ghi
    · simp [componentSum, reindl, Fl.sum, zero_add', projectionRatio, aoiProjection_dot, hb, he, hg, npwhere, hs]
      ring
    · simp [componentSum, reindl, Fl.sum, zero_add', projectionRatio, aoiProjection_dot, hb, he, hg, npwhere,
        sqrt_fin', not_le.mp hs]

example : (1367 : ℝ) ≠ 0 := by norm_num

theorem perezRow_cases (t : PerezTable) (b : Option (Fin 8)) :
    (∀ j, perezRow t.F1 b j = nan ∧ perezRow t.F2 b j = nan) ∨
    (∀ j, ∃ a c, perezRow t.F1 b j = fin a ∧ perezRow t.F2 b j = fin c) := by
  cases b <;> simp [perezRow]

theorem cos85_pos : 0 < Real.cos (85 * (π / 180)) :=
  Real.cos_pos_of_mem_Ioo ⟨by nlinarith [Real.pi_pos], by nlinarith [Real.pi_pos]⟩

theorem perezB_pos (zen : ℝ) : 0 < max (Real.cos (zen * (π / 180))) (Real.cos (85 * (π / 180))) :=
  lt_max_of_lt_right cos85_pos

/-- The three geometric terms are finite for finite F1, F2 and angles. -/
theorem perezTerms_fin (a b tilt az zen saz : ℝ) :
    perezTerms (fin a) (fin b) (fin tilt) (fin az) (fin zen) (fin saz) =
      (fin (0.5 * (1 - a) * (1 + cosDeg tilt)),
       fin (a * max (dot (dirVec tilt az) (dirVec zen saz)) 0 / max (cosDeg zen) (cosDeg 85)),
       fin (b * sinDeg tilt)) := by
  have := (perezB_pos zen).ne'
  simp [perezTerms, aoiProjection_dot, this]

/-- C20(d). perez with any coefficient table, for finite inputs (airmass finite or NaN, as
`get_relative_airmass` returns): the components sum to the total, including the night and clipped
cases. -/
theorem perez_components (t : PerezTable) (tilt az dhi dni dni_extra zen saz : ℝ) (airmass : Fl)
    (he : dni_extra ≠ 0) (ha : airmass = nan ∨ ∃ r, airmass = fin r) :
    let s := perez t (fin tilt) (fin az) (fin dhi) (fin dni) (fin dni_extra) (fin zen) (fin saz) airmass
    componentSum s = s.poa_sky_diffuse := by
  intro s
  rcases ha with rfl | ⟨am, rfl⟩
  · simp [s, perez, componentSum, Fl.sum, npwhere]
  · have hd : fin dhi * fin am / fin dni_extra = fin (dhi * am / dni_extra) := by simp [he]
    simp only [s, perez, hd, radians_fin]
    generalize perezBin _ = b
    rcases perezRow_cases t b with h | h
    · obtain ⟨h0, h0'⟩ := h 0; obtain ⟨h1, h1'⟩ := h 1; obtain ⟨h2, h2'⟩ := h 2
      simp [h0, h1, h2, h0', h1', h2', perezTerms, componentSum, Fl.sum, npwhere]
    · obtain ⟨a0, c0, h0, h0'⟩ := h 0; obtain ⟨a1, c1, h1, h1'⟩ := h 1; obtain ⟨a2, c2, h2, h2'⟩ := h 2
      simp only [h0, h1, h2, h0', h1', h2', fin_mul, fin_add, zero_eq, maximum_fin, perezTerms_fin]
      simp only [npwhere, isnan, fin_ne_nan, if_false, eqv_fin, componentSum, Fl.sum, List.map,
        List.foldl, zero_eq]
      split_ifs with hm
      · simp [hm]
      · simp only [fin_add, fin_inj]
        have hmax : ∀ y : ℝ, max y 0 ≠ 0 → max y 0 = y := by
          intro y hy
          rcases max_choice y 0 with h | h
          · exact h
          · exact absurd h hy
        rw [hmax _ hm]
        ring

example (t : PerezTable) := perez_components t 30 180 100 800 1367 40 170 (fin 1.3) (by norm_num) (Or.inr ⟨_, rfl⟩)

/-- C20(e). perez_driesse: the components sum to the value before the final clip at zero, hence to
the total whenever that value is not negative. -/
theorem perezDriesse_components (f : ℕ → ℕ → Fl → Fl) (tilt az dhi dni dni_extra zen saz : ℝ)
    (airmass : Option Fl)
    (hf : ∃ a b c d e g : ℝ, let zeta := calcZeta (fin dhi) (fin dni) (fin zen)
      f 1 1 zeta = fin a ∧ f 1 2 zeta = fin b ∧ f 1 3 zeta = fin c ∧
      f 2 1 zeta = fin d ∧ f 2 2 zeta = fin e ∧ f 2 3 zeta = fin g)
    (hdelta : ∃ d, calcDelta (fin dhi) (fin dni_extra) (fin zen) airmass = fin d) :
    let s := perezDriesse f (fin tilt) (fin az) (fin dhi) (fin dni) (fin dni_extra) (fin zen)
      (fin saz) airmass
    ∃ r, componentSum s = fin r ∧ s.poa_sky_diffuse = fin (max r 0) := by
  obtain ⟨a, b, c, d, e, g, h1, h2, h3, h4, h5, h6⟩ := hf
  obtain ⟨dl, hdl⟩ := hdelta
  simp only [perezDriesse, hdl, radians_fin, h1, h2, h3, h4, h5, h6, fin_mul, fin_add, zero_eq,
    ofScientific_eq, clip_fin, perezTerms_fin, componentSum, Fl.sum, List.map, List.foldl,
    maximum_fin, fin_inj]
  refine ⟨_, rfl, ?_⟩
  congr 1
  ring

example := perezDriesse_components (fun i j _ => fin (i + j)) 30 180 100 800 1367 60 170 (some (fin 1.3))
  ⟨1 + 1, 1 + 2, 1 + 3, 2 + 1, 2 + 2, 2 + 3, by norm_num⟩ ⟨100 * 1.3 / 1367, by
    have : ¬ ((90 : ℝ) ≤ 60) := by norm_num
    simp [calcDelta, npwhere, this]; norm_num⟩

/-- `zeta` is finite for all real irradiances unless the kappa correction divides by zero. -/
theorem calcZeta_zero_dni (dhi zen : ℝ) (hd : dhi ≠ 0) (hz : 0 ≤ zen) :
    calcZeta (fin dhi) 0 (fin zen) = fin 0 := by
  have h : (1 : ℝ) + 1.041 * (zen * (π / 180)) ^ 3 ≠ 0 := by positivity
  simp only [calcZeta, npwhere, zero_eq, eqv_fin, hd, if_false]
  simp [hd, h]

theorem pdBasis_two : pdBasis 2 0 = (1, 0, 0) := by
  simp [pdBasis, pdT, pdKnots]; norm_num

theorem pdSpline_zero (i j : ℕ) : pdSpline i j 0 = pdC i j 0 := by
  have : pdInterval 0 = 2 := by simp [pdInterval]; norm_num
  simp [pdSpline, this, pdBasis_two]

/-- Each interval's basis functions are non-negative and sum to one on the interval, so on [0, 1]
the spline is a convex combination of three consecutive coefficients. -/
theorem pdSpline_convex (i j : ℕ) (x : ℝ) (h0 : 0 ≤ x) (h1 : x ≤ 1) :
    ∃ l, l ≤ 7 ∧ ∃ a b c : ℝ, 0 ≤ a ∧ 0 ≤ b ∧ 0 ≤ c ∧ a + b + c = 1 ∧
      pdSpline i j x = a * pdC i j l + b * pdC i j (l + 1) + c * pdC i j (l + 2) := by
  have main : ∀ l : ℕ, 2 ≤ l → pdInterval x = l → l ≤ 9 →
      pdT l < pdT (l + 1) → pdT (l - 1) ≤ pdT l → pdT (l + 1) ≤ pdT (l + 2) →
      pdT l ≤ x → x ≤ pdT (l + 1) →
      ∃ l, l ≤ 7 ∧ ∃ a b c : ℝ, 0 ≤ a ∧ 0 ≤ b ∧ 0 ≤ c ∧ a + b + c = 1 ∧
      pdSpline i j x = a * pdC i j l + b * pdC i j (l + 1) + c * pdC i j (l + 2) := by
    intro l hl2 hl hl9 hlt hle1 hle2 hx0 hx1
    obtain ⟨m, rfl⟩ : ∃ m, l = m + 2 := ⟨l - 2, by omega⟩
    simp only [Nat.add_sub_cancel, show m + 2 - 1 = m + 1 by omega, show m + 2 + 1 = m + 3 by omega,
      show m + 2 + 2 = m + 4 by omega] at *
    refine ⟨m, by omega, (pdBasis (m + 2) x).1, (pdBasis (m + 2) x).2.1, (pdBasis (m + 2) x).2.2, ?_, ?_, ?_, ?_, ?_⟩
    all_goals simp only [pdSpline, hl, pdBasis, Nat.add_sub_cancel, show m + 2 - 1 = m + 1 by omega,
      show m + 2 + 1 = m + 3 by omega, show m + 2 + 2 = m + 4 by omega]
    all_goals generalize pdT (m + 1) = t1 at *
    all_goals generalize pdT (m + 2) = t2 at *
    all_goals generalize pdT (m + 3) = t3 at *
    all_goals generalize pdT (m + 4) = t4 at *
    all_goals have a1 : 0 < t3 - t2 := by linarith
    all_goals have a2 : 0 < t3 - t1 := by linarith
    all_goals have a3 : 0 < t4 - t2 := by linarith
    all_goals have b1 : 0 ≤ t3 - x := by linarith
    all_goals have b2 : 0 ≤ x - t2 := by linarith
    all_goals have b3 : 0 ≤ x - t1 := by linarith
    all_goals have b4 : 0 ≤ t4 - x := by linarith
    · positivity
    · positivity
    · positivity
    · field_simp; ring
    · ring
  have hT : ∀ l, pdT l = pdKnots.getD l 0 := fun _ => rfl
  unfold pdInterval at main
  split_ifs at main with c1 c2 c3 c4 c5 c6 c7
  · exact main 9 (by norm_num) rfl (by norm_num) (by norm_num [hT, pdKnots]) (by norm_num [hT, pdKnots]) (by norm_num [hT, pdKnots]) (by simpa [hT, pdKnots] using c1) (by simpa [hT, pdKnots] using h1)
  · exact main 8 (by norm_num) rfl (by norm_num) (by norm_num [hT, pdKnots]) (by norm_num [hT, pdKnots]) (by norm_num [hT, pdKnots]) (by simpa [hT, pdKnots] using c2) (by simpa [hT, pdKnots] using (not_le.mp c1).le)
  · exact main 7 (by norm_num) rfl (by norm_num) (by norm_num [hT, pdKnots]) (by norm_num [hT, pdKnots]) (by norm_num [hT, pdKnots]) (by simpa [hT, pdKnots] using c3) (by simpa [hT, pdKnots] using (not_le.mp c2).le)
  · exact main 6 (by norm_num) rfl (by norm_num) (by norm_num [hT, pdKnots]) (by norm_num [hT, pdKnots]) (by norm_num [hT, pdKnots]) (by simpa [hT, pdKnots] using c4) (by simpa [hT, pdKnots] using (not_le.mp c3).le)
  · exact main 5 (by norm_num) rfl (by norm_num) (by norm_num [hT, pdKnots]) (by norm_num [hT, pdKnots]) (by norm_num [hT, pdKnots]) (by simpa [hT, pdKnots] using c5) (by simpa [hT, pdKnots] using (not_le.mp c4).le)
  · exact main 4 (by norm_num) rfl (by norm_num) (by norm_num [hT, pdKnots]) (by norm_num [hT, pdKnots]) (by norm_num [hT, pdKnots]) (by simpa [hT, pdKnots] using c6) (by simpa [hT, pdKnots] using (not_le.mp c5).le)
  · exact main 3 (by norm_num) rfl (by norm_num) (by norm_num [hT, pdKnots]) (by norm_num [hT, pdKnots]) (by norm_num [hT, pdKnots]) (by simpa [hT, pdKnots] using c7) (by simpa [hT, pdKnots] using (not_le.mp c6).le)
  · exact main 2 (by norm_num) rfl (by norm_num) (by norm_num [hT, pdKnots]) (by norm_num [hT, pdKnots]) (by norm_num [hT, pdKnots]) (by simpa [hT, pdKnots] using h0) (by simpa [hT, pdKnots] using (not_le.mp c7).le)

example := pdSpline_convex 1 2 0.4 (by norm_num) (by norm_num)

/-- C20(f). perez_driesse with its real spline does **not** satisfy the sum property: an overcast sky
(dni = 0), a steeply overturned plane (170°), dhi = 14, dni_extra = 1400, airmass 1, sun at 60°: the
total is clipped to 0 but the components sum to a negative number. -/
theorem perezDriesse_components_counterexample :
    let s := perezDriesse pdF (fin 170) (fin 180) (fin 14) (fin 0) (fin 1400) (fin 60) (fin 180)
      (some (fin 1))
    s.poa_sky_diffuse = fin 0 ∧ ∃ r < 0, componentSum s = fin r := by
  intro s
  have hz := calcZeta_zero_dni 14 60 (by norm_num) (by norm_num)
  rw [zero_eq] at hz
  have hdelta : calcDelta (fin 14) (fin 1400) (fin 60) (some (fin 1)) = fin 0.01 := by
    have : ¬ ((90 : ℝ) ≤ 60) := by norm_num
    simp [calcDelta, npwhere, this]; norm_num
  have hc : pdC 1 1 0 = -0.053 ∧ pdC 1 2 0 = 0.529 ∧ pdC 1 3 0 = -0.028 ∧ pdC 2 1 0 = -0.071 ∧
      pdC 2 2 0 = 0.061 ∧ pdC 2 3 0 = -0.019 := by
    simp [pdC, pdCoefs]
  obtain ⟨c1, c2, c3, c4, c5, c6⟩ := hc
  have hpi := Real.pi_pos
  have hpi3 := Real.pi_gt_d2
  have hpi4 := Real.pi_lt_d2
  set z : ℝ := 60 * (π / 180) with hzdef
  have hz0 : 0 ≤ z := by positivity
  -- trigonometry at 170 degrees
  have h170 : (170 : ℝ) * (π / 180) = π - π / 18 := by ring
  have hcos : cosDeg 170 = -Real.cos (π / 18) := by rw [cosDeg, h170, Real.cos_pi_sub]
  have hsin : sinDeg 170 = Real.sin (π / 18) := by rw [sinDeg, h170, Real.sin_pi_sub]
  have hcb : 1 - (π / 18) ^ 2 / 2 ≤ Real.cos (π / 18) := Real.one_sub_sq_div_two_le_cos
  have hsb : π / 18 - (π / 18) ^ 3 / 4 < Real.sin (π / 18) := by
    have hx : 0 < π / 18 := by positivity
    have := Real.sin_gt_sub_cube hx
    have := pow_pos hx 3
    linarith
  have hF1 : max 0 (-0.053 + 0.529 * 0.01 + -0.028 * z) = 0 := by
    apply max_eq_left; norm_num; nlinarith
  have key : 0.5 * (1 + cosDeg 170) + (-0.071 + 0.061 * 0.01 + -0.019 * z) * sinDeg 170 < 0 := by
    rw [hcos, hsin]
    have hx : 0 < π / 18 := by positivity
    have hx2 : π / 18 < 4 / 18 := by linarith
    have hspos : 0 < Real.sin (π / 18) := by nlinarith [pow_pos hx 3, pow_pos hx 2]
    have h1 : (-0.071 + 0.061 * 0.01 + -0.019 * z) * Real.sin (π / 18) ≤ -0.07 * Real.sin (π / 18) := by
      apply mul_le_mul_of_nonneg_right _ hspos.le
      norm_num; nlinarith
    have h2 : 0.5 * (1 + -Real.cos (π / 18)) ≤ (π / 18) ^ 2 / 4 := by linarith
    have h3 : (π / 18) ^ 2 / 4 < 0.07 * (π / 18 - (π / 18) ^ 3 / 4) := by
      have hp : π < 3.15 := Real.pi_lt_d2
      nlinarith [mul_pos hx hx, pow_pos hx 3]
    nlinarith
  have hs : s = ⟨fin (max (14 * (0.5 * (1 - 0) * (1 + cosDeg 170) +
        0 * max (dot (dirVec 170 180) (dirVec 60 180)) 0 / max (cosDeg 60) (cosDeg 85) +
        (-0.071 + 0.061 * 0.01 + -0.019 * z) * sinDeg 170)) 0),
      [("poa_isotropic", fin (14 * (0.5 * (1 - 0) * (1 + cosDeg 170)))),
       ("poa_circumsolar", fin (14 * (0 * max (dot (dirVec 170 180) (dirVec 60 180)) 0 /
          max (cosDeg 60) (cosDeg 85)))),
       ("poa_horizon", fin (14 * ((-0.071 + 0.061 * 0.01 + -0.019 * z) * sinDeg 170)))]⟩ := by
    have hclip : clip (fin (-0.053 + 0.529 * 0.01 + -0.028 * z)) 0 0.9 = fin 0 := by
      simp only [zero_eq, ofScientific_eq, clip_fin]
      rw [max_comm, hF1]; norm_num
    simp only [s, perezDriesse, hz, hdelta, pdF, pdSpline_zero, c1, c2, c3, c4, c5, c6, radians_fin,
      fin_mul, fin_add, ← hzdef]
    rw [hclip]
    simp only [perezTerms_fin, fin_add, fin_mul, zero_eq, maximum_fin]
  rw [hs]
  constructor
  · simp only [fin_inj]
    apply max_eq_right
    have : (14 : ℝ) * (0.5 * (1 - 0) * (1 + cosDeg 170) +
        0 * max (dot (dirVec 170 180) (dirVec 60 180)) 0 / max (cosDeg 60) (cosDeg 85) +
        (-0.071 + 0.061 * 0.01 + -0.019 * z) * sinDeg 170) =
      14 * (0.5 * (1 + cosDeg 170) + (-0.071 + 0.061 * 0.01 + -0.019 * z) * sinDeg 170) := by
      simp
    rw [this]; nlinarith
  · refine ⟨14 * (0.5 * (1 + cosDeg 170) + (-0.071 + 0.061 * 0.01 + -0.019 * z) * sinDeg 170),
      by nlinarith, ?_⟩
    simp only [componentSum, Fl.sum, List.map, List.foldl, zero_eq, fin_add, fin_inj]
    ring

/-- With its real spline, physical irradiances and the sun up, everything in perez_driesse is finite,
with the default airmass or any positive one. -/
theorem perezDriesse_finite (dhi dni dni_extra zen : ℝ) (airmass : Option Fl)
    (hd : 0 ≤ dhi) (hn : 0 ≤ dni) (he : 0 < dni_extra) (hz : 0 ≤ zen) (hz' : zen ≤ 90)
    (ha : airmass = none ∨ ∃ am, 0 < am ∧ airmass = some (fin am)) :
    (∃ a b c d e g : ℝ, let zeta := calcZeta (fin dhi) (fin dni) (fin zen)
      pdF 1 1 zeta = fin a ∧ pdF 1 2 zeta = fin b ∧ pdF 1 3 zeta = fin c ∧
      pdF 2 1 zeta = fin d ∧ pdF 2 2 zeta = fin e ∧ pdF 2 3 zeta = fin g) ∧
    ∃ d, calcDelta (fin dhi) (fin dni_extra) (fin zen) airmass = fin d := by
  constructor
  · rcases hd.eq_or_lt with rfl | hd
    · have h : (1 : ℝ) - 1.041 * (zen * (π / 180)) ^ 3 * (0 - 1) ≠ 0 := by
        have : 0 ≤ (1.041 : ℝ) * (zen * (π / 180)) ^ 3 := by positivity
        linarith
      have : calcZeta (fin 0) (fin dni) (fin zen) = fin 0 := by
        simp only [calcZeta, npwhere, zero_eq, eqv_fin, if_true, one_eq, ofScientific_eq, radians_fin, fin_pow,
          fin_mul, fin_sub, fin_div h, zero_div]
      simp only [this, pdF]
      exact ⟨_, _, _, _, _, _, rfl, rfl, rfl, rfl, rfl, rfl⟩
    have h1 : dni / (dhi + dni) ≤ 1 := (div_le_one (by positivity)).mpr (by linarith)
    have hk : 0 ≤ 1.041 * (zen * (π / 180)) ^ 3 := by positivity
    have hden : 0 < 1 - 1.041 * (zen * (π / 180)) ^ 3 * (dni / (dhi + dni) - 1) := by nlinarith
    have hs : dhi + dni ≠ 0 := by positivity
    have : calcZeta (fin dhi) (fin dni) (fin zen) =
        fin (dni / (dhi + dni) / (1 - 1.041 * (zen * (π / 180)) ^ 3 * (dni / (dhi + dni) - 1))) := by
      simp only [calcZeta, npwhere, zero_eq, eqv_fin, hd.ne', if_false, fin_add, fin_div hs, one_eq,
        ofScientific_eq, radians_fin, fin_pow, fin_mul, fin_sub, fin_div hden.ne']
    simp only [this, pdF]
    exact ⟨_, _, _, _, _, _, rfl, rfl, rfl, rfl, rfl, rfl⟩
  · obtain ⟨m, hm, hmk⟩ := Proofs.kastenyoung_fin 90 (by norm_num) le_rfl
    have h90 : Atmosphere.kastenyoung 90 = fin m := hmk
    have : ∃ am, 0 < am ∧ npwhere (90 ≤ fin zen) (Atmosphere.kastenyoung 90)
        (airmass.getD (Atmosphere.kastenyoung (fin zen))) = fin am := by
      simp only [npwhere]
      split_ifs
      · exact ⟨m, hm, h90⟩
      · rcases ha with rfl | ⟨am, ham, rfl⟩
        · obtain ⟨am, h, h'⟩ := Proofs.kastenyoung_fin zen hz hz'
          exact ⟨am, h, h'⟩
        · exact ⟨am, ham, rfl⟩
    obtain ⟨am, ham, hw⟩ := this
    refine ⟨dhi / (dni_extra / am), ?_⟩
    simp only [calcDelta, hw, fin_div ham.ne', fin_div (div_ne_zero he.ne' ham.ne')]

/-- C20(e'). The same for the function as shipped. -/
theorem perezDriesse_components_shipped (tilt az dhi dni dni_extra zen saz : ℝ) (airmass : Option Fl)
    (hd : 0 ≤ dhi) (hn : 0 ≤ dni) (he : 0 < dni_extra) (hz : 0 ≤ zen) (hz' : zen ≤ 90)
    (ha : airmass = none ∨ ∃ am, 0 < am ∧ airmass = some (fin am)) :
    let s := perezDriesse pdF (fin tilt) (fin az) (fin dhi) (fin dni) (fin dni_extra) (fin zen)
      (fin saz) airmass
    ∃ r, componentSum s = fin r ∧ s.poa_sky_diffuse = fin (max r 0) :=
  let h := perezDriesse_finite dhi dni dni_extra zen airmass hd hn he hz hz' ha
  perezDriesse_components pdF tilt az dhi dni dni_extra zen saz airmass h.1 h.2

example := perezDriesse_components_shipped 30 180 100 800 1367 40 170 (some (fin 1.3)) (by norm_num) (by norm_num) (by norm_num)
  (by norm_num) (by norm_num) (Or.inr ⟨1.3, by norm_num, rfl⟩)

/-! ## C21: a horizontal plane sees the whole sky -/

theorem dot_horizontal (az zen saz : ℝ) : dot (dirVec 0 az) (dirVec zen saz) = cosDeg zen := by
  simp [dot, dirVec, cosDeg, sinDeg]

theorem isotropic_horizontal (dhi : ℝ) : (isotropic 0 (fin dhi)).poa_sky_diffuse = fin dhi := by
  simp [isotropic]; ring

theorem king_horizontal (dhi ghi zen : ℝ) (h : 0 ≤ dhi) :
    king 0 (fin dhi) (fin ghi) (fin zen) = fin dhi := by
  simp [king]; norm_num; exact h

example := king_horizontal 100 700 40 (by norm_num)

theorem projectionRatio_horizontal (az zen saz : ℝ) (h : 0.01745 ≤ cosDeg zen) :
    projectionRatio (fin 0) (fin az) (fin zen) (fin saz) = fin 1 := by
  have h0 : (0 : ℝ) ≤ cosDeg zen := le_trans (by norm_num) h
  have h1 : cosDeg zen ≠ 0 := by intro h2; rw [h2] at h; norm_num at h
  simp only [projectionRatio, aoiProjection_dot, dot_horizontal, cosd_fin, ofScientific_eq, maximum_fin,
    zero_eq, max_eq_left h0, max_eq_left h, fin_div h1, div_self h1]

theorem haydavies_horizontal (az dhi dni dni_extra zen saz : ℝ) (h : 0.01745 ≤ cosDeg zen)
    (hd : 0 ≤ dhi) (hn : 0 ≤ dni) (he : 0 < dni_extra) (hle : dni ≤ dni_extra) :
    (haydavies 0 (fin az) (fin dhi) (fin dni) (fin dni_extra) (fin zen) (fin saz)).poa_sky_diffuse
      = fin dhi := by
  have e0 : (0 : Fl) = fin 0 := rfl
  have h1 : 0 ≤ dni / dni_extra := by positivity
  have h2 : dni / dni_extra ≤ 1 := (div_le_one he).mpr hle
  simp only [haydavies, e0, projectionRatio_horizontal az zen saz h, haydaviesRb, cosd_fin, fin_div he.ne']
  simp
  rw [max_eq_left (by nlinarith [mul_nonneg hd (sub_nonneg.mpr h2)]), max_eq_left (by positivity)]
  ring

example := haydavies_horizontal 180 100 800 1367 60 170 (by rw [cosDeg_at60]; norm_num) (by norm_num) (by norm_num) (by norm_num)
  (by norm_num)

theorem reindl_horizontal (az dhi dni ghi dni_extra zen saz : ℝ) (h : 0.01745 ≤ cosDeg zen)
    (hg : 0 ≤ ghi) (he : dni_extra ≠ 0) :
    (reindl 0 (fin az) (fin dhi) (fin dni) (fin ghi) (fin dni_extra) (fin zen)
      (fin saz)).poa_sky_diffuse = fin dhi := by
  have e0 : (0 : Fl) = fin 0 := rfl
  by_cases hg0 : ghi = 0
  · simp only [reindl, e0, projectionRatio_horizontal az zen saz h]
    simp [he, hg0, npwhere]
  · have : 0 ≤ max (dni * Real.cos (zen * (π / 180))) 0 / ghi :=
      div_nonneg (le_max_right _ _) hg
    simp only [reindl, e0, projectionRatio_horizontal az zen saz h]
    simp [he, hg0, npwhere, this]

example := reindl_horizontal 180 100 800 500 1367 60 170 (by rw [cosDeg_at60]; norm_num) (by norm_num) (by norm_num)

/-- The sky is "Perez-computable": finite clearness in a known bin. -/
theorem perez_horizontal (t : PerezTable) (az dhi dni dni_extra zen saz am : ℝ)
    (h : cosDeg 85 ≤ cosDeg zen) (hd : 0 < dhi) (hn : 0 ≤ dni) (he : dni_extra ≠ 0) (hz : 0 ≤ zen) :
    (perez t 0 (fin az) (fin dhi) (fin dni) (fin dni_extra) (fin zen) (fin saz)
      (fin am)).poa_sky_diffuse = fin dhi := by
  have hdl : fin dhi * fin am / fin dni_extra = fin (dhi * am / dni_extra) := by simp [he]
  have hzr : 0 ≤ zen * (π / 180) := by positivity
  have hden : 1 + 1.041 * (zen * (π / 180)) ^ 3 ≠ 0 := by positivity
  have heps : perezBin (((fin dhi + fin dni) / fin dhi + 1.041 * radians (fin zen) ^ 3) /
      (1 + 1.041 * radians (fin zen) ^ 3)) ≠ none := by
    have : 0 ≤ ((dhi + dni) / dhi + 1.041 * (zen * (π / 180)) ^ 3) / (1 + 1.041 * (zen * (π / 180)) ^ 3) := by
      positivity
    simp only [fin_add, fin_div hd.ne', radians_fin, fin_pow, ofScientific_eq, fin_mul, one_eq, fin_div hden]
    simp only [perezBin, not_isnan_fin, if_false, zero_eq, fin_le, this, if_true]
    split_ifs <;> simp
  have e0 : (0 : Fl) = fin 0 := rfl
  have hc0 : 0 < cosDeg zen := lt_of_lt_of_le cos85_pos h
  simp only [perez, hdl]
  obtain ⟨b, hb⟩ := Option.ne_none_iff_exists'.mp heps
  simp only [hb]
  simp only [perezRow, radians_fin, fin_mul, fin_add, e0, maximum_fin, perezTerms_fin, dot_horizontal]
  simp only [npwhere, isnan, fin_ne_nan, if_false, fin_inj, max_eq_left h, max_eq_left hc0.le]
  have : ∀ x y : ℝ, dhi * (0.5 * (1 - x) * (1 + cosDeg 0) + x * cosDeg zen / cosDeg zen + y * sinDeg 0)
      = dhi := by
    intro x y
    rw [mul_div_assoc, div_self hc0.ne']
    simp [cosDeg, sinDeg]; ring_nf
  rw [this]
  exact max_eq_left hd.le

example (t : PerezTable) := perez_horizontal t 180 100 800 1367 60 170 2
  (Real.cos_le_cos_of_nonneg_of_le_pi (by nlinarith [Real.pi_pos]) (by nlinarith [Real.pi_pos]) (by nlinarith [Real.pi_pos]))
  (by norm_num) (by norm_num) (by norm_num) (by norm_num)

theorem perezDriesse_horizontal (f : ℕ → ℕ → Fl → Fl) (az dhi dni dni_extra zen saz : ℝ)
    (airmass : Option Fl)
    (hf : ∃ a b c d e g : ℝ, let zeta := calcZeta (fin dhi) (fin dni) (fin zen)
      f 1 1 zeta = fin a ∧ f 1 2 zeta = fin b ∧ f 1 3 zeta = fin c ∧
      f 2 1 zeta = fin d ∧ f 2 2 zeta = fin e ∧ f 2 3 zeta = fin g)
    (hdelta : ∃ d, calcDelta (fin dhi) (fin dni_extra) (fin zen) airmass = fin d)
    (h : cosDeg 85 ≤ cosDeg zen) (hd : 0 ≤ dhi) :
    (perezDriesse f 0 (fin az) (fin dhi) (fin dni) (fin dni_extra) (fin zen)
      (fin saz) airmass).poa_sky_diffuse = fin dhi := by
  obtain ⟨a, b, c, d, e, g, h1, h2, h3, h4, h5, h6⟩ := hf
  obtain ⟨dl, hdl⟩ := hdelta
  have hc0 : 0 < cosDeg zen := lt_of_lt_of_le cos85_pos h
  simp only [perezDriesse, hdl, radians_fin, h1, h2, h3, h4, h5, h6, fin_mul, fin_add, zero_eq,
    ofScientific_eq, clip_fin, perezTerms_fin, dot_horizontal, max_eq_left h, max_eq_left hc0.le,
    maximum_fin, fin_inj]
  have : ∀ x y : ℝ, dhi * (0.5 * (1 - x) * (1 + cosDeg 0) + x * cosDeg zen / cosDeg zen + y * sinDeg 0)
      = dhi := by
    intro x y
    rw [mul_div_assoc, div_self hc0.ne']
    simp [cosDeg, sinDeg]; ring_nf
  rw [this]
  exact max_eq_left hd

/-- The same for the shipped spline, default or explicit airmass. -/
theorem perezDriesse_horizontal_shipped (az dhi dni dni_extra zen saz : ℝ) (airmass : Option Fl)
    (hd : 0 ≤ dhi) (hn : 0 ≤ dni) (he : 0 < dni_extra) (hz : 0 ≤ zen) (hz' : zen ≤ 85)
    (ha : airmass = none ∨ ∃ am, 0 < am ∧ airmass = some (fin am)) :
    (perezDriesse pdF 0 (fin az) (fin dhi) (fin dni) (fin dni_extra) (fin zen)
      (fin saz) airmass).poa_sky_diffuse = fin dhi := by
  obtain ⟨h1, h2⟩ := perezDriesse_finite dhi dni dni_extra zen airmass hd hn he hz (by linarith) ha
  refine perezDriesse_horizontal pdF az dhi dni dni_extra zen saz airmass h1 h2 ?_ hd
  have hpi := Real.pi_pos
  apply Real.cos_le_cos_of_nonneg_of_le_pi (by positivity)
  · nlinarith
  · exact mul_le_mul_of_nonneg_right hz' (by positivity)

example := perezDriesse_horizontal_shipped 180 100 800 1367 60 170 none (by norm_num) (by norm_num) (by norm_num) (by norm_num)
  (by norm_num) (Or.inl rfl)

/-- C22. No diffuse light on the horizontal plane, none on any plane: `perez_driesse` returns 0 (not NaN) when
`dhi = 0`, including with `dni = 0`. -/
theorem perezDriesse_no_diffuse (tilt az dni dni_extra zen saz : ℝ) (airmass : Option Fl)
    (hn : 0 ≤ dni) (he : 0 < dni_extra) (hz : 0 ≤ zen) (hz' : zen ≤ 90)
    (ha : airmass = none ∨ ∃ am, 0 < am ∧ airmass = some (fin am)) :
    (perezDriesse pdF (fin tilt) (fin az) (fin 0) (fin dni) (fin dni_extra) (fin zen)
      (fin saz) airmass).poa_sky_diffuse = fin 0 := by
  obtain ⟨⟨a, b, c, d, e, g, h1, h2, h3, h4, h5, h6⟩, dl, hdl⟩ :=
    perezDriesse_finite 0 dni dni_extra zen airmass le_rfl hn he hz hz' ha
  obtain ⟨r, h1, h2⟩ := perezDriesse_components_shipped tilt az 0 dni dni_extra zen saz airmass le_rfl hn he hz hz' ha
  have h0 : ∀ t : Fl, (∃ q, fin 0 * t = fin q) → fin 0 * t = fin 0 := by
    intro t ⟨q, hq⟩
    cases t <;> simp at hq ⊢
  have hr : r = 0 := by
    simp only [componentSum, Fl.sum, perezDriesse, List.map, List.foldl] at h1
    obtain ⟨x, y, hx, hy, hxy⟩ := add_eq_fin h1
    obtain ⟨x1, y1, hx1, hy1, hxy1⟩ := add_eq_fin hx
    obtain ⟨x2, y2, hx2, hy2, hxy2⟩ := add_eq_fin hx1
    have e1 := h0 _ ⟨_, hy⟩
    have e2 := h0 _ ⟨_, hy1⟩
    have e3 := h0 _ ⟨_, hy2⟩
    rw [hy] at e1; rw [hy1] at e2; rw [hy2] at e3
    simp only [zero_eq, fin_inj] at e1 e2 e3 hx2
    rw [hxy, hxy1, hxy2, e1, e2, e3, ← hx2]; simp
  rw [h2, hr]; simp

example : (none : Option Fl) = none ∨ ∃ am, 0 < am ∧ (none : Option Fl) = some (fin am) := Or.inl rfl

/-- The ground-reflected term vanishes on a horizontal plane. -/
theorem ground_horizontal (ghi albedo : ℝ) : groundDiffuse 0 (fin ghi) (fin albedo) none = .ok (fin 0) := by
  simp [groundDiffuse, radians]

/-- C21 total. Isotropic, Hay-Davies, Reindl, King, Perez and Perez-Driesse: on a horizontal plane
`get_total_irradiance` returns `poa_global = ghi` for every closed sky `ghi = dhi + dni cos z`. -/
theorem total_horizontal (tbl : String → Option PerezTable) (az dhi dni ghi dni_extra zen saz albedo : ℝ)
    (airmass : Option Fl) (model model_perez : String) (dc : Bool) (p : Poa)
    (hd : 0 < dhi) (hn : 0 ≤ dni) (he : 0 < dni_extra) (hle : dni ≤ dni_extra)
    (hz : 0 ≤ zen) (hz' : zen ≤ 85) (hg : ghi = dhi + dni * cosDeg zen)
    (ha : airmass = none ∨ ∃ am, 0 < am ∧ airmass = some (fin am))
    (hk : pyLower model ≠ "klucher")
    (h : getTotalIrradiance tbl pdF (fin 0) (fin az) (fin zen) (fin saz) (fin dni) (fin ghi) (fin dhi)
      (some (fin dni_extra)) airmass (fin albedo) none model model_perez dc = .ok p) :
    p.poa_sky_diffuse = fin dhi ∧ p.poa_ground_diffuse = fin 0 ∧ p.poa_global = fin ghi := by
  have hpi := Real.pi_pos
  have hc85 : cosDeg 85 ≤ cosDeg zen := by
    apply Real.cos_le_cos_of_nonneg_of_le_pi (by positivity)
    · nlinarith
    · exact mul_le_mul_of_nonneg_right hz' (by positivity)
  have hc0 : 0 < cosDeg zen := lt_of_lt_of_le cos85_pos hc85
  have hcb : 0.01745 ≤ cosDeg zen := by
    refine le_trans ?_ hc85
    have e : (85 : ℝ) * (π / 180) = π / 2 - π / 36 := by ring
    rw [cosDeg, e, Real.cos_pi_div_two_sub]
    have hx : 0 < π / 36 := by positivity
    have h3 := Real.sin_gt_sub_cube hx
    have hp := Real.pi_gt_d2
    have hp' := Real.pi_lt_d2
    have hx1 : π / 36 < 0.1 := by linarith
    have : (π / 36) ^ 3 ≤ 0.01 * (π / 36) := by nlinarith [mul_pos hx hx]
    have h5 : (0.087 : ℝ) ≤ π / 36 := by linarith
    nlinarith
  obtain ⟨hsum, hdif, -, ⟨sky, hsky, hpsky, -⟩, hgr⟩ := total_sums _ _ _ _ _ _ _ _ _ _ _ _ _ _ _ _ _ h
  have hdir := total_direct _ _ _ _ _ _ _ _ _ _ _ _ _ _ _ _ _ h
  have hg0 : p.poa_ground_diffuse = fin 0 := by
    have h0 := ground_horizontal ghi albedo
    rw [zero_eq] at h0
    rw [h0] at hgr
    exact (Except.ok.inj hgr).symm
  have hghi : 0 ≤ ghi := by rw [hg]; positivity
  have hs : p.poa_sky_diffuse = fin dhi := by
    rw [hpsky]
    have hm := ((skyDiffuse_ok_iff _ _ _ _ _ _ _ _ _ _ _ _ _ _).mp ⟨sky, hsky⟩).1
    simp only [knownModels, List.mem_cons, List.not_mem_nil, or_false] at hm
    have hstrip : ∀ k : Sky, (if dc then k else (⟨k.poa_sky_diffuse, []⟩ : Sky)).poa_sky_diffuse =
      k.poa_sky_diffuse := by intro k; cases dc <;> rfl
    have e0 : (fin 0 : Fl) = 0 := rfl
    rcases hm with hm | hm | hm | hm | hm | hm | hm <;> simp only [getSkyDiffuse, hm] at hsky
    · simp at hsky; rw [← hsky, hstrip, e0, isotropic_horizontal]
    · exact absurd hm hk
    · simp at hsky; rw [← hsky, hstrip, e0]; exact haydavies_horizontal _ _ _ _ _ _ hcb hd.le hn he hle
    · simp at hsky; rw [← hsky, hstrip, e0]; exact reindl_horizontal _ _ _ _ _ _ _ hcb hghi he.ne'
    · cases dc <;> simp at hsky
      rw [← hsky, e0]; exact king_horizontal _ _ _ hd.le
    · simp at hsky
      cases htb : tbl model_perez with
      | none => simp [htb] at hsky
      | some t =>
        simp [htb] at hsky; rw [← hsky, hstrip, e0]
        have : ∃ am, airmass.getD (Atmosphere.kastenyoung (fin zen)) = fin am := by
          rcases ha with rfl | ⟨am, -, rfl⟩
          · obtain ⟨am, -, h'⟩ := Proofs.kastenyoung_fin zen hz (by linarith)
            exact ⟨am, h'⟩
          · exact ⟨am, rfl⟩
        obtain ⟨am, ham⟩ := this
        rw [ham]
        exact perez_horizontal t _ _ _ _ _ _ _ hc85 hd hn he.ne' hz
    · simp at hsky; rw [← hsky, hstrip, e0]
      exact perezDriesse_horizontal_shipped _ _ _ _ _ _ _ hd.le hn he hz hz' ha
  refine ⟨hs, hg0, ?_⟩
  rw [hsum, hdif, hs, hg0, hdir, dot_horizontal, max_eq_left (by positivity)]
  simp [hg]; ring

/-- A tilted plane under the Reindl sky: the sums, and the beam on the plane. -/
example : ∃ p, getTotalIrradiance (fun _ => none) pdF (fin 30) (fin 180) (fin 40) (fin 170)
    (fin 800) (fin 700) (fin 100) (some (fin 1367)) none (fin 0.25) none "reindl" "" true = .ok p ∧
    p.poa_global = p.poa_direct + p.poa_diffuse ∧
    p.poa_direct = fin (max (800 * dot (dirVec 30 180) (dirVec 40 170)) 0) := by
  obtain ⟨s, hs⟩ := (skyDiffuse_ok_iff (fun _ => none) pdF (fin 30) (fin 180) (fin 40) (fin 170)
    (fin 800) (fin 700) (fin 100) (some (fin 1367)) none "reindl" "" true).mpr ⟨by decide, by simp, by decide, by decide⟩
  have : ∃ p, getTotalIrradiance (fun _ => none) pdF (fin 30) (fin 180) (fin 40) (fin 170)
    (fin 800) (fin 700) (fin 100) (some (fin 1367)) none (fin 0.25) none "reindl" "" true = .ok p := by
    unfold getTotalIrradiance
    rw [hs]
    exact ⟨_, rfl⟩
  obtain ⟨p, hp⟩ := this
  exact ⟨p, hp, (total_sums _ _ _ _ _ _ _ _ _ _ _ _ _ _ _ _ _ hp).1, total_direct _ _ _ _ _ _ _ _ _ _ _ _ _ _ _ _ _ hp⟩

/-- The hypotheses are met, e.g. by perez-driesse at zenith 40 with the default airmass. -/
example : ∃ p, getTotalIrradiance (fun _ => none) pdF (fin 0) (fin 180) (fin 40) (fin 170)
    (fin 800) (fin (100 + 800 * cosDeg 40)) (fin 100) (some (fin 1367)) none (fin 0.25) none
    "Perez-Driesse" "" true = .ok p := by
  obtain ⟨s, hs⟩ := (skyDiffuse_ok_iff (fun _ => none) pdF (fin 0) (fin 180) (fin 40) (fin 170)
    (fin 800) (fin (100 + 800 * cosDeg 40)) (fin 100) (some (fin 1367)) none "Perez-Driesse" "" true).mpr
    ⟨by decide, by simp, by decide, by decide⟩
  unfold getTotalIrradiance
  rw [hs]
  exact ⟨_, rfl⟩

/-- Klucher is the exception: on a horizontal plane it returns
`dhi (1 + F cos² z sin³ z)`, which exceeds `dhi` for every partly clear sky. -/
theorem klucher_horizontal_gt (az dhi ghi zen saz : ℝ) (hd : 0 < dhi) (hg : dhi < ghi)
    (hz : 0 < zen) (hz' : zen < 90) :
    ∃ r, klucher 0 (fin az) (fin dhi) (fin ghi) (fin zen) (fin saz) = fin r ∧ dhi < r := by
  have hpi := Real.pi_pos
  have hc : 0 < cosDeg zen := Real.cos_pos_of_mem_Ioo ⟨by nlinarith, by nlinarith⟩
  have hs : 0 < sinDeg zen := Real.sin_pos_of_pos_of_lt_pi (by positivity) (by nlinarith)
  have hg0 : ghi ≠ 0 := by linarith
  have hF : 0 < 1 - (dhi / ghi) ^ 2 := by
    have h1 : dhi / ghi < 1 := (div_lt_one (by linarith)).mpr hg
    have h0 : 0 < dhi / ghi := div_pos hd (by linarith)
    nlinarith
  have e0 : (0 : Fl) = fin 0 := rfl
  have hx : 0 < (1 - (dhi / ghi) ^ 2) * cosDeg zen ^ 2 * sinDeg zen ^ 3 := by positivity
  refine ⟨dhi * (1 + (1 - (dhi / ghi) ^ 2) * cosDeg zen ^ 2 * sinDeg zen ^ 3), ?_, by nlinarith⟩
  simp only [klucher, e0, aoiProjection_dot, dot_horizontal, maximum_fin, max_eq_left hc.le]
  simp [hg0, npwhere, isnan]
  norm_num

example := klucher_horizontal_gt 180 100 500 40 170 (by norm_num) (by norm_num) (by norm_num) (by norm_num)

/-! ## C22: sky diffuse is never negative -/

/-- C22. With physical irradiances (`0 ≤ dhi ≤ ghi`, `0 ≤ dni ≤ dni_extra`, `dni_extra > 0`) and
angles in range, every transposition model returns NaN or a non-negative value. -/
theorem skyDiffuse_nonneg (tbl : String → Option PerezTable) (f : ℕ → ℕ → Fl → Fl)
    (tilt az zen saz dni ghi dhi dni_extra : ℝ) (airmass : Option Fl)
    (model model_perez : String) (rc : Bool) (s : Sky)
    (ht : 0 ≤ tilt) (ht' : tilt ≤ 180) (hz : 0 ≤ zen) (hz' : zen ≤ 180)
    (hd : 0 ≤ dhi) (hdg : dhi ≤ ghi) (hn : 0 ≤ dni) (he : 0 < dni_extra) (hle : dni ≤ dni_extra)
    (h : getSkyDiffuse tbl f (fin tilt) (fin az) (fin zen) (fin saz) (fin dni) (fin ghi) (fin dhi)
      (some (fin dni_extra)) airmass model model_perez rc = .ok s) :
    s.poa_sky_diffuse = nan ∨ 0 ≤ s.poa_sky_diffuse := by
  have hpi := Real.pi_pos
  have hmax : ∀ x : Fl, maximum x 0 = nan ∨ 0 ≤ maximum x 0 := by
    intro x; by_cases hx : maximum x 0 = nan
    · exact Or.inl hx
    · exact Or.inr (le_maximum_right hx)
  have hst : 0 ≤ Real.sin (0.5 * tilt * (π / 180)) := by
    apply Real.sin_nonneg_of_nonneg_of_le_pi
    · positivity
    · have : 0.5 * tilt * (π / 180) ≤ 90 * (π / 180) :=
        mul_le_mul_of_nonneg_right (by linarith) (by positivity)
      linarith
  have hst2 : 0 ≤ Real.sin (tilt / 2 * (π / 180)) := by
    have : tilt / 2 * (π / 180) = 0.5 * tilt * (π / 180) := by ring
    rw [this]; exact hst
  have hsz : 0 ≤ Real.sin (zen * (π / 180)) := by
    apply Real.sin_nonneg_of_nonneg_of_le_pi
    · positivity
    · have : zen * (π / 180) ≤ 180 * (π / 180) :=
        mul_le_mul_of_nonneg_right hz' (by positivity)
      linarith
  have hct : 0 ≤ 1 + Real.cos (tilt * (π / 180)) := by linarith [Real.neg_one_le_cos (tilt * (π / 180))]
  have key : pyLower model = "isotropic" ∨ pyLower model = "klucher" ∨ pyLower model = "haydavies" ∨
      pyLower model = "reindl" ∨ pyLower model = "king" ∨ pyLower model = "perez" ∨
      pyLower model = "perez-driesse" := by
    have := (skyDiffuse_ok_iff tbl f (fin tilt) (fin az) (fin zen) (fin saz) (fin dni) (fin ghi)
      (fin dhi) (some (fin dni_extra)) airmass model model_perez rc).mp ⟨s, h⟩
    simpa [knownModels] using this.1
  have hstrip : ∀ k : Sky, (if rc then k else (⟨k.poa_sky_diffuse, []⟩ : Sky)).poa_sky_diffuse =
      k.poa_sky_diffuse := by intro k; cases rc <;> rfl
  rcases key with hm | hm | hm | hm | hm | hm | hm <;>
    simp only [getSkyDiffuse, hm] at h
  · -- isotropic
    simp at h; subst h; rw [hstrip]; right
    simp [isotropic]; positivity
  · -- klucher
    cases rc <;> simp at h
    subst h
    right
    simp only [klucher, aoiProjection_dot, zero_eq, maximum_fin]
    by_cases hg0 : ghi = 0
    · have : dhi = 0 := by linarith
      subst this; subst hg0
      simp [fin_div', npwhere, isnan]
    · have hgpos : 0 < ghi := lt_of_le_of_ne (by linarith) (Ne.symm hg0)
      have h1 : dhi / ghi ≤ 1 := (div_le_one hgpos).mpr hdg
      have h0 : 0 ≤ dhi / ghi := by positivity
      have hF : 0 ≤ 1 - (dhi / ghi) ^ 2 := by nlinarith
      simp [hg0, npwhere, isnan]
      norm_num at hst ⊢
      positivity
  · -- haydavies
    simp at h; subst h; rw [hstrip]
    simp only [haydavies, haydaviesRb]
    generalize fin dhi * (1 - fin dni / fin dni_extra) * (0.5 * (1 + cosd (fin tilt))) = x
    generalize fin dhi * (fin dni / fin dni_extra * projectionRatio (fin tilt) (fin az) (fin zen) (fin saz)) = y
    rcases hmax x with hx | hx <;> rcases hmax y with hy | hy
    · left; rw [hx, nan_add]
    · left; rw [hx, nan_add]
    · left; rw [hy, add_nan]
    · right
      revert hx hy
      generalize maximum x 0 = u; generalize maximum y 0 = v
      cases u <;> cases v <;> simp
      all_goals intro h1 h2; linarith
  · -- reindl
    simp at h; subst h; rw [hstrip]; right
    have hb : 0 < max (Real.cos (zen * (π / 180))) 0.01745 := lt_max_of_lt_right (by norm_num)
    have hAI : 0 ≤ 1 - dni / dni_extra := by
      have := (div_le_one he).mpr hle; linarith
    have hAI0 : 0 ≤ dni / dni_extra := by positivity
    have hdot : 0 ≤ max (dot (dirVec tilt az) (dirVec zen saz)) 0 := le_max_right _ _
    by_cases hg0 : ghi = 0
    · simp [reindl, projectionRatio, aoiProjection_dot, hb.ne', he.ne', hg0, npwhere]
      positivity
    · have hgpos : 0 < ghi := lt_of_le_of_ne (by linarith) (Ne.symm hg0)
      have hs : 0 ≤ max (dni * Real.cos (zen * (π / 180))) 0 / ghi :=
        div_nonneg (le_max_right _ _) hgpos.le
      simp [reindl, projectionRatio, aoiProjection_dot, hb.ne', he.ne', hg0, npwhere, hs]
      positivity
  · -- king
    cases rc <;> simp at h
    subst h; exact hmax _
  · -- perez
    simp at h
    cases htb : tbl model_perez with
    | none => simp [htb] at h
    | some t =>
      simp [htb] at h; subst h; rw [hstrip]
      simp only [perez, npwhere]
      split_ifs
      · right; simp
      · exact hmax _
  · -- perez-driesse
    simp at h; subst h; rw [hstrip]
    exact hmax _

/-- The hypotheses are met by an ordinary clear-sky sample for every model name. -/
example : ∃ s, getSkyDiffuse (fun _ => none) (fun _ _ _ => 0) (fin 30) (fin 180) (fin 40) (fin 170)
    (fin 800) (fin 700) (fin 100) (some (fin 1367)) none "reindl" "allsitescomposite1990" true = .ok s :=
  (skyDiffuse_ok_iff _ _ _ _ _ _ _ _ _ _ _ _ _ _).mpr ⟨by decide, by simp, by decide, by decide⟩


/-! ### C57: the Perez equation with the published clearness bins -/

/-- The published clearness bin edges (Perez et al. 1990, Table 1); bin 7 is open above. -/
def clearnessEdges : List ℝ := [0, 1.065, 1.23, 1.5, 1.95, 2.8, 4.5, 6.2]

/-- Clearness `e` lies in bin `i`: at or above its lower edge and below the next one, if there is a next one. -/
def InBin (e : ℝ) (i : Fin 8) : Prop :=
  clearnessEdges.getD i 0 ≤ e ∧ (i < 7 → e < clearnessEdges.getD (i + 1) 0)

private theorem perezBin_inBin (e : ℝ) (he : 0 ≤ e) : ∃ i, perezBin (fin e) = some i ∧ InBin e i := by
  have hn : ¬ isnan (fin e) := by simp
  unfold perezBin
  simp only [hn, if_false, ofScientific_eq, fin_le, zero_eq]
  by_cases h7 : 6.2 ≤ e
  · exact ⟨7, by simp only [h7, if_true, if_false], by norm_num [InBin, clearnessEdges] at *; grind⟩
  by_cases h6 : 4.5 ≤ e
  · exact ⟨6, by simp only [h7, h6, if_true, if_false], by norm_num [InBin, clearnessEdges] at *; grind⟩
  by_cases h5 : 2.8 ≤ e
  · exact ⟨5, by simp only [h7, h6, h5, if_true, if_false], by norm_num [InBin, clearnessEdges] at *; grind⟩
  by_cases h4 : 1.95 ≤ e
  · exact ⟨4, by simp only [h7, h6, h5, h4, if_true, if_false], by norm_num [InBin, clearnessEdges] at *; grind⟩
  by_cases h3 : 1.5 ≤ e
  · exact ⟨3, by simp only [h7, h6, h5, h4, h3, if_true, if_false],
      by norm_num [InBin, clearnessEdges] at *; grind⟩
  by_cases h2 : 1.23 ≤ e
  · exact ⟨2, by simp only [h7, h6, h5, h4, h3, h2, if_true, if_false],
      by norm_num [InBin, clearnessEdges] at *; grind⟩
  by_cases h1 : 1.065 ≤ e
  · exact ⟨1, by simp only [h7, h6, h5, h4, h3, h2, h1, if_true, if_false],
      by norm_num [InBin, clearnessEdges] at *; grind⟩
  · exact ⟨0, by simp only [h7, h6, h5, h4, h3, h2, h1, he, if_true, if_false],
      by norm_num [InBin, clearnessEdges] at *; grind⟩

/-- **C57**: for positive `dhi` and non-negative `dni`, `perez` is
`max(0, dhi [ (1 - F1)(1 + cos tilt)/2 + F1 max(0, cos aoi)/max(cos zenith, cos 85 deg) + F2 sin tilt ])`, with
`F1 = max(0, f11 + f12 Delta + f13 z)` and `F2 = f21 + f22 Delta + f23 z` read from the table row whose clearness
interval contains `((dhi + dni)/dhi + 1.041 z^3)/(1 + 1.041 z^3)`, `z` in radians; bins are closed below, open above. -/
theorem perez_formula (t : PerezTable) (tilt az dhi dni dni_extra zen saz am : ℝ)
    (hd : 0 < dhi) (hn : 0 ≤ dni) (he : dni_extra ≠ 0) (hz : 0 ≤ zen) :
    let z := rad zen
    let Δ := dhi * am / dni_extra
    ∃ i : Fin 8, InBin (((dhi + dni) / dhi + 1.041 * z ^ 3) / (1 + 1.041 * z ^ 3)) i ∧
      let F1 := max (t.F1 i 0 + t.F1 i 1 * Δ + t.F1 i 2 * z) 0
      let F2 := t.F2 i 0 + t.F2 i 1 * Δ + t.F2 i 2 * z
      (perez t (fin tilt) (fin az) (fin dhi) (fin dni) (fin dni_extra) (fin zen) (fin saz) (fin am)).poa_sky_diffuse =
        fin (max (dhi * ((1 - F1) * (1 + cosDeg tilt) / 2 +
          F1 * max (dot (dirVec tilt az) (dirVec zen saz)) 0 / max (cosDeg zen) (cosDeg 85) +
          F2 * sinDeg tilt)) 0) := by
  intro z Δ
  have hzr : 0 ≤ z := by simp only [z, rad]; positivity
  have hden : (1 : ℝ) + 1.041 * z ^ 3 ≠ 0 := by positivity
  have hpos : 0 ≤ ((dhi + dni) / dhi + 1.041 * z ^ 3) / (1 + 1.041 * z ^ 3) := by positivity
  obtain ⟨i, hi, hb⟩ := perezBin_inBin _ hpos
  refine ⟨i, hb, ?_⟩
  intro F1 F2
  have hdl : fin dhi * fin am / fin dni_extra = fin Δ := by simp [he, Δ]
  have hrad : radians (fin zen) = fin z := rfl
  have heps : ((fin dhi + fin dni) / fin dhi + 1.041 * radians (fin zen) ^ 3) / (1 + 1.041 * radians (fin zen) ^ 3)
      = fin (((dhi + dni) / dhi + 1.041 * z ^ 3) / (1 + 1.041 * z ^ 3)) := by
    simp only [hrad, fin_add, fin_div hd.ne', fin_pow, ofScientific_eq, fin_mul, one_eq, fin_div hden]
  simp only [perez, heps, hi, hdl]
  simp only [hrad, perezRow, fin_mul, fin_add, zero_eq, maximum_fin, perezTerms_fin]
  simp only [npwhere, isnan, fin_ne_nan, if_false, fin_inj]
  congr 1
  simp only [F1, F2]
  ring

/-- The hypotheses are met: a partly clear sky falls in bin 1 exactly at its lower edge. -/
example : InBin 1.065 1 ∧ ¬ InBin 1.065 0 := by
  constructor <;> simp [InBin, clearnessEdges] <;> norm_num

end Pvlib.Props.Transposition
end
