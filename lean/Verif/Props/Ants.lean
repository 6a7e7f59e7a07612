import Verif.Props.TrigValues
import Verif.Props.Sheds
import Verif.Props.Shading

/-! # C134-C136: ants2d, and the mismatch loss of bifacial systems -/

noncomputable section
open Fl Classical
open scoped Real

namespace Pvlib.Props.Ants

open Pvlib.Bifacial Pvlib.Tools Pvlib.Irradiance Pvlib.Spec Pvlib.Shading Pvlib.Tracking

/-! ### The shaded fraction of a row -/

private theorem psza_flat (φ : ℝ) (h1 : -90 < φ) (h2 : φ < 90) : Tracking.psza φ 90 0 0 = φ := by
  have hpi := Real.pi_pos
  have h := Tracking.projected_fin φ 90 0 0
  have hc : cosd (fin 0) = fin 1 := by rw [cosd_fin]; simp
  have hs : sind (fin 0) = fin 0 := by rw [sind_fin]; simp
  have h9 : (90:ℝ) * (π / 180) = π / 2 := by ring
  unfold projectedSolarZenithAngle at h
  dsimp only at h
  simp only [hc, hs, cosd_fin, sind_fin, h9, Real.cos_pi_div_two, Real.sin_pi_div_two, fin_mul, fin_add, fin_sub, arctan2_fin,
    degrees_fin, fin_inj, mul_one, mul_zero, zero_mul, add_zero, zero_add, sub_zero] at h
  rw [← h]
  have : Complex.arg ⟨Real.cos (φ * (π / 180)), Real.sin (φ * (π / 180))⟩ = φ * (π / 180) := by
    have e : (⟨Real.cos (φ * (π / 180)), Real.sin (φ * (π / 180))⟩ : ℂ) =
        Complex.cos ((φ * (π / 180) : ℝ) : ℂ) + Complex.sin ((φ * (π / 180) : ℝ) : ℂ) * Complex.I := by
      generalize φ * (π / 180) = y
      rw [← Complex.ofReal_cos, ← Complex.ofReal_sin]
      generalize Real.cos y = a
      generalize Real.sin y = b
      apply Complex.ext <;> simp
    rw [e]
    exact Complex.arg_cos_add_sin_mul_I ⟨by nlinarith, by nlinarith⟩
  rw [this]
  field_simp

/-- The shaded fraction of a row of a flat array under a sun above the horizon: what the strip of light of width
`cos(φ) / gcr` (seen from the sun) leaves of the row, whose width is `|cos(rot - φ)|`. -/
theorem shaded_value (rot φ gcr : ℝ) (h1 : -90 < φ) (h2 : φ < 90) (hg : 0 < gcr) (hc : cosDeg (rot - φ) ≠ 0) :
    shadedFraction1d (fin φ) 90 0 (fin rot) 1 (1 / fin gcr) =
      fin (max 0 (1 - cosDeg φ / gcr / |cosDeg (rot - φ)|)) := by
  have hpi := Real.pi_pos
  have hφ : 0 ≤ cosDeg φ := Real.cos_nonneg_of_mem_Icc ⟨by nlinarith, by nlinarith⟩
  have e : shadedFraction1d (fin φ) 90 0 (fin rot) 1 (1 / fin gcr) =
      shadedFraction1d (fin φ) (fin 90) (fin 0) (fin rot) (fin 1) (fin (1 / gcr)) (fin 0) 0 (fin 0) none := by
    rw [one_eq, fin_div hg.ne']; rfl
  rw [e]
  have c0 : cosDeg 0 = 1 := by simp [cosDeg]
  simp only [shadedFraction1d, Tracking.projected_fin, Option.getD_none, psza_flat φ h1 h2]
  rw [Tracking.tAsterisk_same φ rot 1 (1 / gcr) 0 one_ne_zero (by rw [c0]; norm_num) hc, zero_eq, one_eq]
  unfold clip
  rw [maximum_fin, minimum_fin, fin_inj, c0, sub_zero, div_one, div_one, max_comm]
  have : 0 ≤ cosDeg φ / gcr / |cosDeg (rot - φ)| := by positivity
  rw [min_eq_left (max_le zero_le_one (by first | linarith | (have e2 : 1 / gcr * cosDeg φ / |cosDeg (rot - φ)| = cosDeg φ / gcr / |cosDeg (rot - φ)| := by ring
                                                              rw [e2]; linarith)))]
  congr 2
  ring

/-- A row turned by 60° towards a sun at 60°, with 80 % of the ground covered, is shaded to 3/8. -/
theorem demo_shaded : shadedFraction1d (fin 60) 90 0 (fin 60) 1 (1 / fin 0.8) = fin (3/8) := by
  have h60 : (60:ℝ) * (π / 180) = π / 3 := by ring
  have h0 : cosDeg (60 - 60) = 1 := by simp [cosDeg]
  have h1 : cosDeg 60 = 1 / 2 := by unfold cosDeg; rw [h60, Real.cos_pi_div_three]
  rw [shaded_value 60 60 0.8 (by norm_num) (by norm_num) (by norm_num) (by rw [h0]; norm_num), h0, h1, abs_one]
  norm_num

/-! ### Segments of a row -/

/-- **C134a.** The segments are `n` adjoining intervals of equal length from 0 to 1. -/
theorem segments_spec (n : ℕ) (i : ℕ) (h : i < n) :
    (segments n)[i]? = some (fin ((i : ℝ) / n), fin (((i : ℝ) + 1) / n)) ∧ (segments n).length = n := by
  unfold segments
  constructor
  · rw [List.getElem?_map, List.getElem?_range h]; rfl
  · simp

example := segments_spec 4 2 (by norm_num)

private theorem clip_fin (y : ℝ) : clip (fin y) 0 1 = fin (min (max y 0) 1) := by
  unfold clip; rw [zero_eq, one_eq, maximum_fin, minimum_fin]

/-- Sum of the parts of a shadow of length `y` in unit cells. -/
private theorem sum_clip (y : ℝ) (hy : 0 ≤ y) (n : ℕ) :
    ∑ i ∈ Finset.range n, min (max (y - i) 0) 1 = min y n := by
  induction n with
  | zero => simp [hy]
  | succ n ih =>
    rw [Finset.sum_range_succ, ih]
    push_cast
    rcases le_total y n with h | h
    · rw [min_eq_left h, max_eq_right (by linarith), min_eq_left zero_le_one, min_eq_left (by linarith), add_zero]
    · rw [min_eq_right h, max_eq_left (by linarith)]
      rcases le_total y (n + 1) with h1 | h1
      · rw [min_eq_left (by linarith), min_eq_left h1]; ring
      · rw [min_eq_right (by linarith), min_eq_right h1]

/-- The shaded part of segment `i` of `n`, given the shaded part `s` of the whole row. -/
private theorem seg_fin (rot φ gcr s : ℝ) (n i : ℕ) (hi : i < n)
    (hs : shadedFraction1d (fin φ) 90 0 (fin rot) 1 (1 / fin gcr) = fin s) :
    antsShadedFraction (fin rot) (fin φ) (fin gcr) (fin ((i : ℝ) / n)) (fin (((i : ℝ) + 1) / n)) =
      fin (min (max (n * s - (if rot < 0 then ((n - 1 - i : ℕ) : ℝ) else (i : ℝ))) 0) 1) := by
  have hn : (0:ℝ) < n := by exact_mod_cast (by omega : 0 < n)
  unfold antsShadedFraction
  dsimp only
  rw [hs, zero_eq, one_eq, fin_lt]
  by_cases h : rot < 0
  · rw [npwhere_pos h, npwhere_pos h, if_pos h]
    have e1 : (((n - 1 - i : ℕ) : ℝ)) = n - 1 - i := by
      rw [Nat.cast_sub (by omega), Nat.cast_sub (by omega)]; norm_num
    have hd : (1 - (i : ℝ) / n) - (1 - ((i : ℝ) + 1) / n) = 1 / n := by field_simp; ring
    simp only [fin_sub]
    rw [hd, fin_div (by positivity)]
    have := clip_fin ((s - (1 - ((i : ℝ) + 1) / n)) / (1 / n))
    rw [zero_eq, one_eq] at this
    rw [this, e1, fin_inj]
    congr 2
    field_simp
    ring
  · rw [npwhere_neg h, npwhere_neg h, if_neg h]
    have hd : ((i : ℝ) + 1) / n - (i : ℝ) / n = 1 / n := by field_simp; ring
    simp only [fin_sub]
    rw [hd, fin_div (by positivity)]
    have := clip_fin ((s - (i : ℝ) / n) / (1 / n))
    rw [zero_eq, one_eq] at this
    rw [this, fin_inj]
    congr 2
    field_simp

/-- **C134b.** Cut into `n` segments, the shaded fractions are in [0, 1] and their mean is the shaded fraction of the whole
row, for either sense of rotation. -/
theorem shaded_partition (rot φ gcr s : ℝ) (n : ℕ) (hn : 0 < n)
    (hs : shadedFraction1d (fin φ) 90 0 (fin rot) 1 (1 / fin gcr) = fin s) :
    ∃ f : ℕ → ℝ, (∀ i < n, antsShadedFraction (fin rot) (fin φ) (fin gcr) (fin ((i : ℝ) / n)) (fin (((i : ℝ) + 1) / n)) = fin (f i) ∧
        0 ≤ f i ∧ f i ≤ 1) ∧
      (∑ i ∈ Finset.range n, f i) / n = s := by
  have hs01 : 0 ≤ s ∧ s ≤ 1 := by
    rcases Pvlib.Props.Shading.shadedFraction_range (fin φ) 90 0 (fin rot) 1 (1 / fin gcr) 0 0 0 none with h | ⟨r, hr, h0, h1⟩
    · rw [hs] at h; simp at h
    · rw [hs, fin_inj] at hr; subst hr; exact ⟨h0, h1⟩
  have hn' : (0:ℝ) < n := by exact_mod_cast hn
  refine ⟨fun i => min (max (n * s - (if rot < 0 then ((n - 1 - i : ℕ) : ℝ) else (i : ℝ))) 0) 1, ?_, ?_⟩
  · intro i hi
    exact ⟨seg_fin rot φ gcr s n i hi hs, le_min (le_max_right _ _) zero_le_one, min_le_right _ _⟩
  · have key : ∑ i ∈ Finset.range n, min (max (n * s - (if rot < 0 then ((n - 1 - i : ℕ) : ℝ) else (i : ℝ))) 0) 1 = n * s := by
      by_cases h : rot < 0
      · simp only [if_pos h]
        rw [Finset.sum_range_reflect (fun j : ℕ => min (max (n * s - (j : ℝ)) 0) 1) n, sum_clip _ (by nlinarith [hs01.1])]
        exact min_eq_left (by nlinarith [hs01.2])
      · simp only [if_neg h]
        rw [sum_clip _ (by nlinarith [hs01.1])]
        exact min_eq_left (by nlinarith [hs01.2])
    rw [key]; field_simp

example := shaded_partition 60 60 0.8 (3/8) 4 (by norm_num) demo_shaded

/-- For a rotation that is not negative the segments are shaded from the first one up. -/
theorem shaded_order (rot φ gcr s : ℝ) (n i : ℕ) (hi : i + 1 < n) (hr : 0 ≤ rot)
    (hs : shadedFraction1d (fin φ) 90 0 (fin rot) 1 (1 / fin gcr) = fin s) :
    antsShadedFraction (fin rot) (fin φ) (fin gcr) (fin (((i + 1 : ℕ) : ℝ) / n)) (fin ((((i + 1 : ℕ) : ℝ) + 1) / n)) ≤
      antsShadedFraction (fin rot) (fin φ) (fin gcr) (fin ((i : ℝ) / n)) (fin (((i : ℝ) + 1) / n)) := by
  rw [seg_fin rot φ gcr s n (i + 1) hi hs, seg_fin rot φ gcr s n i (by omega) hs, fin_le, if_neg (not_lt.mpr hr), if_neg (not_lt.mpr hr)]
  refine min_le_min_right _ (max_le_max_right _ ?_)
  push_cast; linarith

example := shaded_order 60 60 0.8 (3/8) 4 2 (by norm_num) (by norm_num) demo_shaded

/-! ### One side -/

/-- **C134c.** The columns of one row segment: global = direct + diffuse, diffuse = sky + ground; all finite and not
negative for valid input. -/
theorem side_nonneg (rot φ gcr h pitch dni dhi ca s x0 x1 : ℝ) (light : List (ℝ × ℝ × ℝ × ℝ)) (n : ℤ)
    (hp : 0 < pitch) (hg : 0 < gcr) (hx : x0 + 1e-6 ≤ x1) (hx0 : 0 ≤ x0) (hx1 : x1 ≤ 1) (hd : 0 ≤ dni) (hdh : 0 ≤ dhi)
    (hsin : Real.sin (rot * (π / 180)) ≠ 0)
    (hl : ∀ g ∈ light, 0 ≤ g.2.2.1 ∧ 0 ≤ g.2.2.2)
    (hs : shadedFraction1d (fin φ) 90 0 (fin rot) 1 (1 / fin gcr) = fin s) :
    ∃ D S R f : ℝ,
      antsSide (fin rot) (fin ca) (fin φ) (fin gcr) (fin h) (fin pitch) (fin dni) (fin dhi)
        (light.map fun g => (⟨fin g.1, fin g.2.1, fin g.2.2.1⟩, fin g.2.2.2)) (fin x0) (fin x1) n =
        { poa_global := fin (D + (R + S)), poa_direct := fin D, poa_diffuse := fin (R + S), poa_sky_diffuse := fin S
          poa_ground_diffuse := fin R, shaded_fraction := fin f } ∧
      0 ≤ D ∧ D ≤ dni * max ca 0 ∧ 0 ≤ S ∧ S ≤ dhi ∧ 0 ≤ R ∧ 0 ≤ f ∧ f ≤ 1 ∧ D = dni * max ca 0 * (1 - f) := by
  have hxp : 0 < x1 - x0 := by norm_num at hx ⊢; linarith
  -- shade
  have hf : ∃ f, antsShadedFraction (fin rot) (fin φ) (fin gcr) (fin x0) (fin x1) = fin f ∧ 0 ≤ f ∧ f ≤ 1 := by
    unfold antsShadedFraction
    dsimp only
    rw [hs, zero_eq, one_eq, fin_lt]
    by_cases h : rot < 0
    · rw [npwhere_pos h, npwhere_pos h]
      simp only [fin_sub]
      rw [fin_div (by linarith)]
      have := clip_fin ((s - (1 - x1)) / (1 - x0 - (1 - x1)))
      rw [zero_eq, one_eq] at this
      exact ⟨_, this, le_min (le_max_right _ _) zero_le_one, min_le_right _ _⟩
    · rw [npwhere_neg h, npwhere_neg h]
      simp only [fin_sub]
      rw [fin_div (by linarith)]
      have := clip_fin ((s - x0) / (x1 - x0))
      rw [zero_eq, one_eq] at this
      exact ⟨_, this, le_min (le_max_right _ _) zero_le_one, min_le_right _ _⟩
  obtain ⟨f, hf, hf0, hf1⟩ := hf
  -- sky
  have hv : ∃ v, vfRowSky2dInteg (fin rot) (fin gcr) (fin x0) (fin x1) = fin v ∧ 0 ≤ v ∧ v ≤ 1 := by
    rcases le_or_gt 0 rot with h | h
    · have := BifacialRow.row_sky_mean_range rot gcr x0 x1 hg (by linarith) hsin
      exact ⟨_, BifacialRow.row_sky_mean rot gcr x0 x1 hg h hx hsin, this.1, this.2⟩
    · have h2 : 0 < -rot := by linarith
      have hsin' : Real.sin (-rot * (π / 180)) ≠ 0 := by rw [neg_mul, Real.sin_neg]; exact neg_ne_zero.mpr hsin
      have e := BifacialRow.row_sky_negative_tilt (-rot) gcr x0 x1 h2
      rw [neg_neg] at e
      have := BifacialRow.row_sky_mean_range (-rot) gcr (1 - x1) (1 - x0) hg (by linarith) hsin'
      exact ⟨_, e.trans (BifacialRow.row_sky_mean (-rot) gcr _ _ hg h2.le (by linarith) hsin'), this.1, this.2⟩
  obtain ⟨v, hv, hv0, hv1⟩ := hv
  -- ground
  have hR : ∃ R, Fl.sum ((light.map fun g => ((⟨fin g.1, fin g.2.1, fin g.2.2.1⟩ : GroundSegment), fin g.2.2.2)).map fun p =>
      Fl.sum ((arange (-n) n).map fun (k : ℤ) =>
        maximum (rowGroundSlat (fin rot) (fin gcr) (fin h) (fin pitch) (fin x0) (fin x1) p.1.g0 p.1.g1 k) 0) * p.1.albedo * p.2) = fin R ∧
      0 ≤ R := by
    rw [List.map_map]
    have hterm : ∀ g : ℝ × ℝ × ℝ × ℝ, Fl.sum ((arange (-n) n).map fun (k : ℤ) =>
        maximum (rowGroundSlat (fin rot) (fin gcr) (fin h) (fin pitch) (fin x0) (fin x1) (fin g.1) (fin g.2.1) k) 0) =
        fin ((arange (-n) n).map fun k : ℤ => max (BifacialStrings.cellR rot gcr h pitch x0 x1 (k + g.1) (k + g.2.1)) 0).sum := by
      intro g
      exact BifacialStrings.row_integ_fin rot gcr h pitch x0 x1 g.1 g.2.1 n hp hg (by linarith)
    have e : (light.map ((fun p : GroundSegment × Fl => Fl.sum ((arange (-n) n).map fun (k : ℤ) =>
        maximum (rowGroundSlat (fin rot) (fin gcr) (fin h) (fin pitch) (fin x0) (fin x1) p.1.g0 p.1.g1 k) 0) * p.1.albedo * p.2) ∘
        fun g : ℝ × ℝ × ℝ × ℝ => ((⟨fin g.1, fin g.2.1, fin g.2.2.1⟩ : GroundSegment), fin g.2.2.2))) =
        (light.map fun g => ((arange (-n) n).map fun k : ℤ => max (BifacialStrings.cellR rot gcr h pitch x0 x1 (k + g.1) (k + g.2.1)) 0).sum *
          g.2.2.1 * g.2.2.2).map fin := by
      rw [List.map_map]
      refine List.map_congr_left fun g _ => ?_
      simp only [Function.comp_apply]
      rw [hterm g, fin_mul, fin_mul]
    rw [e, sum_fin]
    refine ⟨_, rfl, List.sum_nonneg ?_⟩
    intro y hy
    rw [List.mem_map] at hy
    obtain ⟨g, hg', rfl⟩ := hy
    have h0 : 0 ≤ ((arange (-n) n).map fun k : ℤ => max (BifacialStrings.cellR rot gcr h pitch x0 x1 (k + g.1) (k + g.2.1)) 0).sum := by
      refine List.sum_nonneg ?_
      intro y hy
      rw [List.mem_map] at hy
      obtain ⟨k, -, rfl⟩ := hy
      exact le_max_right _ _
    exact mul_nonneg (mul_nonneg h0 (hl g hg').1) (hl g hg').2
  obtain ⟨R, hR, hR0⟩ := hR
  have hm : 0 ≤ max ca 0 := le_max_right _ _
  have hdm : 0 ≤ dni * max ca 0 := by positivity
  refine ⟨dni * max ca 0 * (1 - f), v * dhi, R, f, ?_, mul_nonneg hdm (by linarith), mul_le_of_le_one_right hdm (by linarith),
    by positivity, mul_le_of_le_one_left hdh hv1, hR0, hf0, hf1, rfl⟩
  unfold antsSide
  dsimp only
  rw [hf, hv, hR, zero_eq, maximum_fin, one_eq]
  simp only [fin_sub, fin_mul, fin_add]

example := side_nonneg 60 60 0.8 1 5 800 100 1 (3/8) (1/4) (1/2) [(0, 1/2, 0.7, 500), (1/2, 1, 0.4, 80)] 5 (by norm_num)
  (by norm_num) (by norm_num) (by norm_num) (by norm_num) (by norm_num) (by norm_num)
  (Real.sin_pos_of_pos_of_lt_pi (by positivity) (by nlinarith [Real.pi_pos])).ne'
  (by intro g hg
      simp only [List.mem_cons, List.not_mem_nil, or_false] at hg
      rcases hg with rfl | rfl <;> norm_num) demo_shaded

/-- The mean over the segments of the direct light is that of the whole row. -/
theorem direct_mean (rot φ gcr s dni ca : ℝ) (h pitch dhi : Fl) (light : List (GroundSegment × Fl)) (n : ℕ) (k : ℤ) (hn : 0 < n)
    (hs : shadedFraction1d (fin φ) 90 0 (fin rot) 1 (1 / fin gcr) = fin s) :
    ∃ D : ℕ → ℝ, (∀ i < n, (antsSide (fin rot) (fin ca) (fin φ) (fin gcr) h pitch (fin dni) dhi light
        (fin ((i : ℝ) / n)) (fin (((i : ℝ) + 1) / n)) k).poa_direct = fin (D i)) ∧
      (∑ i ∈ Finset.range n, D i) / n = dni * max ca 0 * (1 - s) := by
  obtain ⟨f, hf, hsum⟩ := shaded_partition rot φ gcr s n hn hs
  have hn' : (n:ℝ) ≠ 0 := by positivity
  refine ⟨fun i => dni * max ca 0 * (1 - f i), ?_, ?_⟩
  · intro i hi
    unfold antsSide
    dsimp only
    rw [(hf i hi).1, zero_eq, maximum_fin, one_eq]
    simp only [fin_sub, fin_mul]
  · rw [← Finset.mul_sum, Finset.sum_sub_distrib, Finset.sum_const, Finset.card_range, nsmul_eq_mul, mul_one, ← hsum]
    field_simp

example := direct_mean 60 60 0.8 (3/8) 800 1 1 5 100 [] 4 5 (by norm_num) demo_shaded

/-! ### Sky models -/

/-- **C135a.** Which calls raise: an unknown sky model, or a missing `dni_extra` or `airmass` that the model needs. -/
theorem sky_model_errors (diffuse : String → Fl → Option Fl → Fl → Fl → Sky) (dni dhi z saz : Fl) (m : String) (e am : Option Fl) :
    applySkyDiffuseModel diffuse dni dhi m z saz e am = .error .valueError ↔
      (m ≠ "isotropic" ∧ m ≠ "haydavies" ∧ m ≠ "perez" ∧ m ≠ "perez-driesse") ∨
      (m ≠ "isotropic" ∧ e = none) ∨ ((m = "perez" ∨ m = "perez-driesse") ∧ am = none) := by
  unfold applySkyDiffuseModel
  by_cases h1 : m = "haydavies"
  · subst h1
    cases e <;> simp
  · by_cases h2 : m = "perez" ∨ m = "perez-driesse"
    · have h3 : m ≠ "isotropic" := by rcases h2 with rfl | rfl <;> decide
      rcases h2 with rfl | rfl <;> cases e <;> cases am <;> simp
    · by_cases h3 : m = "isotropic"
      · subst h3; simp
      · push Not at h2; simp [h1, h2, h3]

example (diffuse : String → Fl → Option Fl → Fl → Fl → Sky) : applySkyDiffuseModel diffuse 800 100 "perez" 60 180 (some 1400) none =
    .error .valueError := (sky_model_errors diffuse 800 100 60 180 "perez" (some 1400) none).mpr (by simp)

theorem sky_model_isotropic (diffuse : String → Fl → Option Fl → Fl → Fl → Sky) (dni dhi z saz : Fl) (e am : Option Fl) :
    applySkyDiffuseModel diffuse dni dhi "isotropic" z saz e am = .ok (dni, dhi) := by
  unfold applySkyDiffuseModel
  rw [if_neg (by decide), if_neg (by decide), if_neg (by decide)]

/-- **C135a.** With a sky model that knows a circumsolar part, this part is taken from the diffuse light on the horizontal and counted as direct
light: DNI grows by what a plane facing the sun receives of it, DHI falls by what the horizontal receives of it. -/
theorem sky_model_moves (diffuse : String → Fl → Option Fl → Fl → Fl → Sky) (dni dhi z saz e : Fl) (am : Option Fl) (m : String)
    (hm : m = "haydavies" ∨ ((m = "perez" ∨ m = "perez-driesse") ∧ am ≠ none)) :
    ∃ sky : Fl → Fl → Sky, sky = diffuse m e (if m = "haydavies" then none else am) ∧
      applySkyDiffuseModel diffuse dni dhi m z saz (some e) am = .ok (dni + circumsolar (sky z saz), dhi - circumsolar (sky 0 180)) := by
  refine ⟨_, rfl, ?_⟩
  unfold applySkyDiffuseModel
  rcases hm with rfl | ⟨h, ha⟩
  · rfl
  · obtain ⟨x, rfl⟩ := Option.ne_none_iff_exists'.mp ha
    rcases h with rfl | rfl <;> rfl

example (diffuse : String → Fl → Option Fl → Fl → Fl → Sky) :=
  sky_model_moves diffuse 800 100 60 180 1400 (some 2) "perez" (Or.inr ⟨Or.inl rfl, by simp⟩)

/-! ### Rotations and slopes -/

/-- **C135b.** Angles are brought into [-180, 180) by whole turns. -/
theorem wrap_spec (r : ℝ) : ∃ (w : ℝ) (k : ℤ), wrap180 (fin r) = fin w ∧ -180 ≤ w ∧ w < 180 ∧ w = r - 360 * k := by
  refine ⟨r + 180 - 360 * ⌊(r + 180) / 360⌋ - 180, ⌊(r + 180) / 360⌋, ?_, ?_, ?_, by ring⟩
  · unfold wrap180
    rw [ofNat_eq, ofNat_eq, fin_add, mod_fin (by norm_num), fin_sub]
  · have := (le_div_iff₀ (by norm_num : (0:ℝ) < 360)).mp (Int.floor_le ((r + 180) / 360))
    linarith
  · have := (div_lt_iff₀ (by norm_num : (0:ℝ) < 360)).mp (Int.lt_floor_add_one ((r + 180) / 360))
    linarith

/-- **C135c.** Front and back of a row have opposite normals, for any rotation and axis; so at most one of them gets
direct light. -/
theorem back_normal (t b a z saz : ℝ) :
    ∃ cf : ℝ,
      aoiProjection (calcSurfaceOrientation (fin t) (fin b) (fin a)).1 (calcSurfaceOrientation (fin t) (fin b) (fin a)).2 (fin z) (fin saz) = fin cf ∧
      aoiProjection (calcSurfaceOrientation (wrap180 (fin t + 180)) (fin b) (fin a)).1
        (calcSurfaceOrientation (wrap180 (fin t + 180)) (fin b) (fin a)).2 (fin z) (fin saz) = fin (-cf) := by
  obtain ⟨w, k, hw, -, -, hk⟩ := wrap_spec (t + 180)
  obtain ⟨t1, a1, h1, n1, -⟩ := Tracking.surfaceOrientation_normal t b a
  obtain ⟨t2, a2, h2, n2, -⟩ := Tracking.surfaceOrientation_normal w b a
  refine ⟨dot (dirVec t1 a1) (dirVec z saz), ?_, ?_⟩
  · rw [h1]; exact Geometry.aoiProjection_dot t1 a1 z saz
  · rw [ofNat_eq, fin_add, hw, h2]
    refine (Geometry.aoiProjection_dot t2 a2 z saz).trans ?_
    rw [n1, n2, fin_inj]
    have hs : sinDeg w = -sinDeg t := by
      rw [hk, Tracking.sinDeg_mod]
      unfold sinDeg; rw [show (t + 180) * (π / 180) = t * (π / 180) + π by ring, Real.sin_add_pi]
    have hc : cosDeg w = -cosDeg t := by
      rw [hk, Tracking.cosDeg_mod]
      unfold cosDeg; rw [show (t + 180) * (π / 180) = t * (π / 180) + π by ring, Real.cos_add_pi]
    simp only [Tracking.trackerNormal, Tracking.right_eq, dot, hs, hc]
    ring

/-- **C135d.** On flat ground the slope correction changes nothing, apart from replacing the global irradiance by the sum of
its components. -/
theorem slope_zero (h pitch gcr rot dni dhi z saz az : ℝ) (hr : -180 ≤ rot) (hr2 : rot < 180) :
    applyGroundSlope (fin h) (fin pitch) (fin gcr) (fin rot) (fin dni) (fin dhi) (fin z) (fin saz) 0 (fin az) 0 =
      (fin h, fin pitch, fin gcr, fin rot, fin (dhi + dni * max (cosDeg z) 0)) := by
  have hc : cosd 0 = fin 1 := by rw [zero_eq, cosd_fin]; simp
  have hs : sind 0 = fin 0 := by rw [zero_eq, sind_fin]; simp
  unfold applyGroundSlope
  dsimp only
  rw [hc, hs]
  have hac : acosd (fin 1 * fin 1) = fin 0 := by
    unfold acosd; rw [fin_mul, mul_one, arccos_fin (by norm_num) le_rfl]; simp
  rw [hac, show cosd (fin 0) = fin 1 from hc, zero_eq, fin_mul, fin_mul, mul_one, mul_one, fin_div (by norm_num), div_one, fin_sub, sub_zero]
  have hw : wrap180 (fin rot) = fin rot := by
    obtain ⟨w, k, hw, h1, h2, hk⟩ := wrap_spec rot
    have : k = 0 := by
      have h3 : (-1 : ℝ) < k := by by_contra hcon; push Not at hcon; linarith
      have h4 : (k : ℝ) < 1 := by by_contra hcon; push Not at hcon; linarith
      have h3' : (-1 : ℤ) < k := by exact_mod_cast h3
      have h4' : k < 1 := by exact_mod_cast h4
      omega
    rw [hw, hk, this]; simp
  rw [hw]
  simp only [fin_mul, arctan2_fin, degrees_fin, fin_add]
  rw [Geometry.aoiProjection_dot]
  have hd : ∀ x : ℝ, dot (dirVec 0 x) (dirVec z saz) = cosDeg z := by intro x; simp [dot, dirVec, cosDeg, sinDeg]
  rw [hd, maximum_fin, fin_mul, fin_add]

example := slope_zero 1 5 0.4 30 800 100 40 180 90 (by norm_num) (by norm_num)

/-! ### The whole call -/

/-- **C135e.** A call succeeds exactly if the sky model accepts its input, and returns one result per row segment and
ground segment. -/
theorem result_shape (diffuse : String → Fl → Option Fl → Fl → Fl → Sky)
    (rot az z saz gcr h pitch ghi dhi dni : Fl) (m : String) (e am : Option Fl) (rows : List (Fl × Fl)) (ground : List GroundSegment)
    (tilt slope : Fl) (n : Option ℤ) :
    (∀ r, antsGetIrradiance diffuse rot az z saz gcr h pitch ghi dhi dni m e am rows ground tilt slope n = .ok r →
      r.1.length = rows.length ∧ r.2.length = ground.length) ∧
    (antsGetIrradiance diffuse rot az z saz gcr h pitch ghi dhi dni m e am rows ground tilt slope n = .error .valueError ↔
      applySkyDiffuseModel diffuse dni dhi m z saz e am = .error .valueError) := by
  unfold antsGetIrradiance
  cases applySkyDiffuseModel diffuse dni dhi m z saz e am with
  | error x => simp [Except.bind]
  | ok p =>
    simp only [Except.bind]
    constructor
    · intro r hr
      cases hr
      simp
    · simp

example (diffuse : String → Fl → Option Fl → Fl → Fl → Sky) (rot az z saz gcr h pitch ghi dhi dni : Fl) :
    antsGetIrradiance diffuse rot az z saz gcr h pitch ghi dhi dni "perez" none none [(0, 1)] [⟨0, 1, 0.2⟩] 0 0 (some 3) =
      .error .valueError := (result_shape ..).2.mpr ((sky_model_errors ..).mpr (by simp))

/-- **C135f.** The direct light on a ground segment is the beam `ghi - dhi` times its unshaded fraction: a segment wholly in
the sun gets all of it, one wholly in shade none. -/
theorem ground_light (rot φ gcr h pitch : Fl) (n : ℤ) (g : GroundSegment) (ghi dhi u v : ℝ)
    (hu : unshadedGround rot φ gcr h pitch n 85 g.g0 g.g1 = fin u) (hv : vfGroundSky2dInteg rot gcr h pitch n g.g0 g.g1 = fin v) :
    groundLight rot φ gcr h pitch (fin ghi) (fin dhi) n g = (fin (u * (ghi - dhi)), fin (v * dhi)) := by
  simp only [groundLight, hu, hv, one_eq, fin_sub, fin_mul, Prod.mk.injEq, fin_inj]
  exact ⟨by ring, trivial⟩

example := ground_light (fin 60) (fin 60) (fin 0.8) (fin 1) (fin 5) 5 ⟨fin 0, fin (1/2), fin 0.2⟩ 500 100 _ _
  (BifacialShadow.fraction_range 60 60 0.8 1 5 85 0 (1/2) 5 (by norm_num) (by norm_num) (cosDeg_pos_of (by norm_num) (by norm_num)).ne').choose_spec.1
  (BifacialStrings.ground_sky_integ_nonneg 60 0.8 1 5 0 (1/2) 5 (by norm_num) (by norm_num)).choose_spec.1

/-- **C135g.** What a call computes on sloped ground (isotropic sky).  In the frame of the slope the rows have the rotation
`rot'`, the sun the angle `φ'`, and the angle between the two is the one in the horizontal frame, up to whole turns.  The
front of row segment `(x0, x1)` is the side with rotation `rot'`; its back is the side turned by half a turn, at the same
place of the row: measured from the other edge, the segment `(1 - x1, 1 - x0)`. -/
theorem sloped_call (diffuse : String → Fl → Option Fl → Fl → Fl → Sky) (rot az z saz gcr h pitch ghi dhi dni : ℝ)
    (e am : Option Fl) (rows : List (Fl × Fl)) (ground : List GroundSegment) (tilt slope : ℝ) (hs : slope ≠ 0) (n : ℤ) (ψ : ℝ)
    (hψ : projectedSolarZenithAngle (fin z) (fin saz) (fin tilt) (fin az) = fin ψ) :
    ∃ (rot' φ' : ℝ) (k : ℤ) (h' pitch' gcr' ghi' cf : Fl) (light : List (Fl × Fl)),
      rot' - φ' = rot - ψ + 360 * k ∧ -180 ≤ rot' ∧ rot' < 180 ∧
      (h', pitch', gcr', fin rot', ghi') = applyGroundSlope (fin h) (fin pitch) (fin gcr) (fin rot) (fin dni) (fin dhi) (fin z)
        (fin saz) (fin tilt) (fin az) (fin slope) ∧
      cf = aoiProjection (calcSurfaceOrientation (fin rot) (fin tilt) (fin az)).1
        (calcSurfaceOrientation (fin rot) (fin tilt) (fin az)).2 (fin z) (fin saz) ∧
      light = ground.map (groundLight (fin rot') (fin φ') gcr' h' pitch' ghi' (fin dhi) n) ∧
      antsGetIrradiance diffuse (fin rot) (fin az) (fin z) (fin saz) (fin gcr) (fin h) (fin pitch) (fin ghi) (fin dhi) (fin dni)
          "isotropic" e am rows ground (fin tilt) (fin slope) (some n) =
        .ok (rows.map fun x =>
          { front := antsSide (fin rot') cf (fin φ') gcr' h' pitch' (fin dni) (fin dhi)
              (ground.zip (light.map fun l => l.1 + l.2)) x.1 x.2 n
            back := antsSide (wrap180 (fin rot' + 180)) (-cf) (fin φ') gcr' h' pitch' (fin dni) (fin dhi)
              (ground.zip (light.map fun l => l.1 + l.2)) (1 - x.2) (1 - x.1) n }, light) := by
  obtain ⟨w, k, hw, w1, w2, hk⟩ := wrap_spec (rot - slope)
  obtain ⟨cf, hf, hb⟩ := back_normal rot tilt az z saz
  generalize hA : applyGroundSlope (fin h) (fin pitch) (fin gcr) (fin rot) (fin dni) (fin dhi) (fin z)
        (fin saz) (fin tilt) (fin az) (fin slope) = A
  have hA4 : A.2.2.2.1 = fin w := by rw [← hA, ← hw]; rfl
  refine ⟨w, ψ - slope, -k, A.1, A.2.1, A.2.2.1, A.2.2.2.2, fin cf, _, ?_, w1, w2, ?_, hf.symm, rfl, ?_⟩
  · rw [hk]; push_cast; ring
  · rw [← hA4]
  · have hsl : (fin tilt : Fl) ≠ 0 ∨ (fin slope : Fl) ≠ 0 := Or.inr (by rw [zero_eq, Ne, fin_inj]; exact hs)
    unfold antsGetIrradiance
    rw [sky_model_isotropic]
    simp only [Except.bind, hA, if_pos hsl, hψ, fin_sub, hA4, Option.getD_some, hf, hb, neg_fin]

example (diffuse : String → Fl → Option Fl → Fl → Fl → Sky) := sloped_call diffuse 30 180 40 150 0.4 1 5 700 100 800 none none
  [(0, 1)] [⟨0, 1, 0.2⟩] 5 10 (by norm_num) 5 _ (Tracking.projected_fin 40 150 5 180)

/-! ### Mismatch -/

/-- **C136a.** The mismatch loss is the polynomial with the given coefficients, scaled by the fill factor ratio. -/
theorem mismatch_value (r : ℝ) (c : List ℝ) :
    powerMismatchDeline (fin r) (c.map fin) = fin ((c.zipIdx.map fun p => p.1 * r ^ p.2).sum) := by
  unfold powerMismatchDeline
  dsimp only
  have key : ∀ (c : List ℝ) (k : ℕ), ((c.zipIdx k).map fun p => p.1 * r ^ p.2).sum =
      r ^ k * ((c.zipIdx).map fun p => p.1 * r ^ p.2).sum := by
    intro c
    induction c with
    | nil => intro k; simp
    | cons x c ih =>
      intro k
      simp only [List.zipIdx_cons, List.map_cons, List.sum_cons, zero_add]
      rw [ih (k + 1), ih 1]
      ring
  induction c with
  | nil => rfl
  | cons x c ih =>
    rw [List.map_cons, List.foldr_cons, ih, fin_mul, fin_add, fin_inj]
    simp only [List.zipIdx_cons, List.map_cons, List.sum_cons, zero_add]
    rw [key c 1]
    ring

theorem mismatch_fill_factor (r ff ref : ℝ) (c : List ℝ) (hf : ff ≠ 0) (hr : ref ≠ 0) :
    powerMismatchDeline (fin r) (c.map fin) (some (fin ff)) (fin ref) = fin (ff / ref * (c.zipIdx.map fun p => p.1 * r ^ p.2).sum) := by
  have h := mismatch_value r (c.map fun x => x * ff / ref)
  have e : powerMismatchDeline (fin r) (c.map fin) (some (fin ff)) (fin ref) =
      powerMismatchDeline (fin r) ((c.map fun x => x * ff / ref).map fin) := by
    unfold powerMismatchDeline
    dsimp only
    rw [if_neg (by rw [zero_eq, fin_inj]; exact hf), List.map_map, List.map_map]
    congr 1
    refine List.map_congr_left fun x _ => ?_
    simp only [Function.comp_apply, fin_mul]
    rw [fin_div hr]
  rw [e, h, fin_inj]
  have key : ∀ (c : List ℝ) (k : ℕ), (((c.map fun x => x * ff / ref).zipIdx k).map fun p => p.1 * r ^ p.2).sum =
      ff / ref * ((c.zipIdx k).map fun p => p.1 * r ^ p.2).sum := by
    intro c
    induction c with
    | nil => intro k; simp
    | cons x c ih =>
      intro k
      simp only [List.map_cons, List.zipIdx_cons, List.sum_cons]
      rw [ih (k + 1)]
      ring
  exact key c 0

example := mismatch_fill_factor 0.05 0.7 0.79 [0, 0.142, 0.032] (by norm_num) (by norm_num)

/-- **C136b.** With the default coefficients the loss of a uniformly lit array is 0; otherwise it is positive and grows
with the spread of irradiance. -/
theorem mismatch_default (r : ℝ) (hr : 0 ≤ r) :
    ∃ l, powerMismatchDeline (fin r) = fin l ∧ 0 ≤ l ∧ (l = 0 ↔ r = 0) ∧
      (∀ r', r < r' → ∃ l', powerMismatchDeline (fin r') = fin l' ∧ l < l') := by
  have hv : ∀ r : ℝ, powerMismatchDeline (fin r) = fin (0.142 * r + 3.2 * r ^ 2) := by
    intro r
    have := mismatch_value r [0, 0.142, 0.032 * 100]
    refine Eq.trans ?_ (this.trans ?_)
    · rfl
    · rw [fin_inj]
      simp only [List.zipIdx_cons, List.zipIdx_nil, List.map_cons, List.map_nil, List.sum_cons, List.sum_nil, zero_add]
      norm_num
  refine ⟨_, hv r, by positivity, ?_, ?_⟩
  · constructor
    · intro h
      have : (0.142:ℝ) * r + 3.2 * r ^ 2 ≥ 0.142 * r := by nlinarith [sq_nonneg r]
      norm_num at *
      nlinarith
    · rintro rfl; norm_num
  · intro r' h
    refine ⟨_, hv r', ?_⟩
    norm_num
    nlinarith

example := mismatch_default 0.05 (by norm_num)

/-- Finding: a fill factor of 0 is taken for a missing one. -/
theorem mismatch_zero_ff (r : Fl) (c : List Fl) (ref : Fl) :
    powerMismatchDeline r c (some 0) ref = powerMismatchDeline r c none ref := by
  unfold powerMismatchDeline; simp

end Pvlib.Props.Ants
end
