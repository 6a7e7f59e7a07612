import Verif.Model.PerezTables
import Verif.Props.Transposition
import Mathlib.Topology.Order.OrderClosed
import Mathlib.Topology.Algebra.Order.Field

/-! # Property C192: Perez with the shipped coefficients - names, jumps between clearness bins; Perez-Driesse has none -/

noncomputable section
open scoped Classical
namespace Pvlib.Props.PerezContinuity
open Fl Pvlib.Irradiance Pvlib.Tools Pvlib.Spec Pvlib.Props.Transposition

/-! ### Which tables exist -/

/-- **C192**: the accepted names are these eleven; anything else - the documented '1990' included - is a KeyError, in `get_sky_diffuse` too. -/
theorem names (n : String) : (perezShipped n).isSome ↔ n ∈ ["allsitescomposite1990", "allsitescomposite1988", "sandiacomposite1988",
    "usacomposite1988", "france1988", "phoenix1988", "elmonte1988", "osage1988", "albuquerque1988", "capecanaveral1988", "albany1988"] := by
  rw [perezShipped, Option.isSome_map]
  have key : ∀ l : List (String × List (List Int)), (l.lookup n).isSome ↔ n ∈ l.map Prod.fst := by
    intro l
    induction l with
    | nil => simp
    | cons x t ih =>
      obtain ⟨a, b⟩ := x
      by_cases h : n = a
      · subst h; simp [List.lookup]
      · have : (n == a) = false := by simpa using h
        simp only [List.lookup, this, List.map_cons, List.mem_cons, h, false_or]
        exact ih
  rw [key]
  rfl

theorem name_1990 (f : ℕ → ℕ → Fl → Fl) (tilt az zen saz dni ghi dhi e : Fl) (am : Option Fl) (dc : Bool) :
    getSkyDiffuse perezShipped f tilt az zen saz dni ghi dhi (some e) am "perez" "1990" dc = .error (.keyError "1990") := by
  have : perezShipped "1990" = none := by
    rw [← Option.not_isSome_iff_eq_none, names]; decide
  have h : pyLower "perez" = "perez" := by decide +kernel
  simp [getSkyDiffuse, this, h]

/-! ### Perez jumps -/

private theorem table1990 : ∃ t, perezShipped "allsitescomposite1990" = some t ∧
    (t.F1 0 0 = -0.008 ∧ t.F1 0 1 = 0.588 ∧ t.F2 0 0 = -0.06 ∧ t.F2 0 1 = 0.072) ∧
    (t.F1 1 0 = 0.13 ∧ t.F1 1 1 = 0.683 ∧ t.F2 1 0 = -0.019 ∧ t.F2 1 1 = 0.066) ∧
    (t.F1 6 0 = 1.06 ∧ t.F1 6 1 = -1.6 ∧ t.F2 6 0 = 0.264 ∧ t.F2 6 1 = -1.127) := by
  have h : perezCoeffs.lookup "allsitescomposite1990" = some [[-80, 5880, -620, -600, 720, -220], [1300, 6830, -1510, -190, 660, -290],
    [3300, 4870, -2210, 550, -640, -260], [5680, 1870, -2950, 1090, -1520, -140], [8730, -3920, -3620, 2260, -4620, 10],
    [11320, -12370, -4120, 2880, -8230, 560], [10600, -16000, -3590, 2640, -11270, 1310], [6780, -3270, -2500, 1560, -13770, 2510]] := by
    decide +kernel
  refine ⟨_, by rw [perezShipped, h]; rfl, ?_⟩
  norm_num

/-- The sun in the zenith: clearness is 1 + dni/dhi, brightness `dhi am / ext`. -/
private theorem perez_zenith (t : PerezTable) {tilt az dhi dni ext saz am : ℝ} (hd : 0 < dhi) (he : ext ≠ 0) {b : Fin 8}
    (hb : perezBin (fin (1 + dni / dhi)) = some b) :
    (perez t (fin tilt) (fin az) (fin dhi) (fin dni) (fin ext) (fin 0) (fin saz) (fin am)).poa_sky_diffuse =
      fin (max (dhi * (0.5 * (1 - max (t.F1 b 0 + t.F1 b 1 * (dhi * am / ext)) 0) * (1 + cosDeg tilt) +
        max (t.F1 b 0 + t.F1 b 1 * (dhi * am / ext)) 0 * max (dot (dirVec tilt az) (dirVec 0 saz)) 0 / max (cosDeg 0) (cosDeg 85) +
        (t.F2 b 0 + t.F2 b 1 * (dhi * am / ext)) * sinDeg tilt)) 0) := by
  have e1 : ((fin dhi + fin dni) / fin dhi + 1.041 * radians (fin 0) ^ 3) / (1 + 1.041 * radians (fin 0) ^ 3) = fin (1 + dni / dhi) := by
    simp only [radians_fin, fin_pow, fin_mul, fin_add, ofScientific_eq, one_eq, fin_div hd.ne']
    rw [fin_div (by norm_num)]
    congr 1
    field_simp
    norm_num
  unfold perez
  dsimp only
  rw [e1, hb]
  simp only [perezRow, fin_mul, fin_div he, radians_fin, fin_add, zero_eq, maximum_fin, perezTerms_fin, npwhere, isnan,
    reduceCtorEq, if_false, zero_mul, mul_zero, add_zero]

private theorem perez_zenith_iso (t : PerezTable) {tilt az dhi dni ext saz am : ℝ} (hd : 0 < dhi) (he : ext ≠ 0) {b : Fin 8}
    (hb : perezBin (fin (1 + dni / dhi)) = some b) :
    (perez t (fin tilt) (fin az) (fin dhi) (fin dni) (fin ext) (fin 0) (fin saz) (fin am)).components.lookup "poa_isotropic" =
      some (npwhere (eqv (perez t (fin tilt) (fin az) (fin dhi) (fin dni) (fin ext) (fin 0) (fin saz) (fin am)).poa_sky_diffuse (fin 0)) 0
        (fin (dhi * (0.5 * (1 - max (t.F1 b 0 + t.F1 b 1 * (dhi * am / ext)) 0) * (1 + cosDeg tilt))))) := by
  have e1 : ((fin dhi + fin dni) / fin dhi + 1.041 * radians (fin 0) ^ 3) / (1 + 1.041 * radians (fin 0) ^ 3) = fin (1 + dni / dhi) := by
    simp only [radians_fin, fin_pow, fin_mul, fin_add, ofScientific_eq, one_eq, fin_div hd.ne']
    rw [fin_div (by norm_num)]
    congr 1
    field_simp
    norm_num
  unfold perez
  dsimp only
  rw [e1, hb]
  simp only [perezRow, fin_mul, fin_div he, radians_fin, fin_add, zero_eq, maximum_fin, perezTerms_fin, npwhere, isnan,
    reduceCtorEq, if_false, zero_mul, mul_zero, add_zero, List.lookup, beq_self_eq_true]

private theorem bin0 {x : ℝ} (h0 : 0 ≤ x) (h : x < 0.065) : perezBin (fin (1 + x)) = some 0 := by
  have e : ∀ r : ℝ, 1.065 ≤ r → ¬ (fin r ≤ fin (1 + x)) := by intro r hr; rw [fin_le]; push Not; norm_num at *; linarith
  unfold perezBin
  simp only [isnan, ofScientific_eq, zero_eq, reduceCtorEq, if_false]
  rw [if_neg (e _ (by norm_num)), if_neg (e _ (by norm_num)), if_neg (e _ (by norm_num)), if_neg (e _ (by norm_num)), if_neg (e _ (by norm_num)),
    if_neg (e _ (by norm_num)), if_neg (e _ (by norm_num)), if_pos (by rw [fin_le]; linarith)]

private theorem bin1 {x : ℝ} (h0 : 0.065 ≤ x) (h : x < 0.23) : perezBin (fin (1 + x)) = some 1 := by
  have e : ∀ r : ℝ, 1.23 ≤ r → ¬ (fin r ≤ fin (1 + x)) := by intro r hr; rw [fin_le]; push Not; norm_num at *; linarith
  unfold perezBin
  simp only [isnan, ofScientific_eq, zero_eq, reduceCtorEq, if_false]
  rw [if_neg (e _ (by norm_num)), if_neg (e _ (by norm_num)), if_neg (e _ (by norm_num)), if_neg (e _ (by norm_num)), if_neg (e _ (by norm_num)),
    if_neg (e _ (by norm_num)), if_pos (by rw [fin_le]; norm_num at *; linarith)]

private theorem wall : dot (dirVec 90 180) (dirVec 0 180) = 0 := by
  simp [dot, dirVec, sinDeg, cosDeg, show (90 : ℝ) * (Real.pi / 180) = Real.pi / 2 by ring]

private theorem cos90 : cosDeg 90 = 0 := by simp [cosDeg, show (90 : ℝ) * (Real.pi / 180) = Real.pi / 2 by ring]
private theorem sin90 : sinDeg 90 = 1 := by simp [sinDeg, show (90 : ℝ) * (Real.pi / 180) = Real.pi / 2 by ring]

/-- **C192**: `perez` with its default coefficients is discontinuous: on a wall under the sun in the zenith with dhi = 100 W/m2
(dni_extra 1400, air mass 1.4) it returns one value for all dni in [0, 6.5) and another for all dni in [6.5, 23), more than 3 W/m2
lower - more direct light, less diffuse, however small the increase. -/
theorem perez_jumps : ∃ t, perezShipped "allsitescomposite1990" = some t ∧ ∃ v v' : ℝ, v' + 3 < v ∧
    (∀ dni : ℝ, 0 ≤ dni → dni < 6.5 →
      (perez t 90 180 100 (fin dni) 1400 0 180 1.4).poa_sky_diffuse = fin v) ∧
    ∀ dni : ℝ, 6.5 ≤ dni → dni < 23 → (perez t 90 180 100 (fin dni) 1400 0 180 1.4).poa_sky_diffuse = fin v' := by
  obtain ⟨t, ht, ⟨a1, a2, a3, a4⟩, ⟨b1, b2, b3, b4⟩, _⟩ := table1990
  refine ⟨t, ht, 100 * (0.5 * (1 - 0.0508) - 0.0528), 100 * (0.5 * (1 - 0.1983) - 0.0124), by norm_num, ?_, ?_⟩
  · intro dni h0 h1
    have hb : perezBin (fin (1 + dni / 100)) = some 0 := bin0 (by positivity) (by rw [div_lt_iff₀ (by norm_num)]; norm_num at *; linarith)
    simp only [ofNat_eq, ofScientific_eq, zero_eq]
    rw [perez_zenith t (by norm_num) (by norm_num) hb, wall, cos90, sin90, a1, a2, a3, a4]
    norm_num
  · intro dni h0 h1
    have hb : perezBin (fin (1 + dni / 100)) = some 1 := bin1 (by rw [le_div_iff₀ (by norm_num)]; norm_num at *; linarith)
      (by rw [div_lt_iff₀ (by norm_num)]; norm_num at *; linarith)
    simp only [ofNat_eq, ofScientific_eq, zero_eq]
    rw [perez_zenith t (by norm_num) (by norm_num) hb, wall, cos90, sin90, b1, b2, b3, b4]
    norm_num

/-- **C192**: in a clear sky the circumsolar weight of `perez` can exceed 1, and its isotropic component is then negative: dhi = 100,
dni = 400 under the sun in the zenith, air mass 0.1 (dni_extra 1400) on a horizontal plane gives about -4.9 W/m2, while the total is positive. -/
theorem perez_negative_isotropic : ∃ t, perezShipped "allsitescomposite1990" = some t ∧ ∃ v : ℝ, v < -4 ∧
    (perez t 0 180 100 400 1400 0 180 0.1).components.lookup "poa_isotropic" = some (fin v) ∧
    ∃ p : ℝ, 0 < p ∧ (perez t 0 180 100 400 1400 0 180 0.1).poa_sky_diffuse = fin p := by
  obtain ⟨t, ht, _, _, c1, c2, c3, c4⟩ := table1990
  have hb : perezBin (fin (1 + 400 / 100)) = some 6 := by
    unfold perezBin
    simp only [isnan, ofScientific_eq, zero_eq, reduceCtorEq, if_false]
    rw [if_neg (by rw [fin_le]; norm_num), if_pos (by rw [fin_le]; norm_num)]
  have hc0 : cosDeg 0 = 1 := by simp [cosDeg]
  have hs0 : sinDeg 0 = 0 := by simp [sinDeg]
  have h85 : cosDeg 85 ≤ 1 := Real.cos_le_one _
  have hp := perez_zenith t (tilt := 0) (az := 180) (saz := 180) (am := 0.1) (show (0 : ℝ) < 100 by norm_num) (show (1400 : ℝ) ≠ 0 by norm_num) hb
  rw [dot_horizontal, hc0, hs0, max_eq_left h85, c1, c2, c3, c4] at hp
  refine ⟨t, ht, 100 * (0.5 * (1 - (1.06 - 1.6 * (100 * 0.1 / 1400))) * (1 + 1)), by norm_num, ?_, _, ?_, by simpa using hp⟩
  · simp only [ofNat_eq, ofScientific_eq, zero_eq]
    have hne : ¬ eqv (perez t (fin 0) (fin 180) (fin 100) (fin 400) (fin 1400) (fin 0) (fin 180) (fin 0.1)).poa_sky_diffuse (fin 0) := by
      rw [hp, eqv_fin]; norm_num
    rw [perez_zenith_iso t (by norm_num) (by norm_num) hb, npwhere, if_neg hne, hc0, c1, c2]
    norm_num
  · norm_num

/-! ### Perez-Driesse does not -/

private theorem piece_continuous (i j l : ℕ) :
    Continuous fun y => pdC i j (l - 2) * (pdBasis l y).1 + pdC i j (l - 1) * (pdBasis l y).2.1 + pdC i j l * (pdBasis l y).2.2 := by
  unfold pdBasis
  dsimp only
  fun_prop

private theorem piece_meets (i j l : ℕ) (hl : l ∈ [2, 3, 4, 5, 6, 7, 8]) :
    pdC i j (l - 2) * (pdBasis l (pdT (l + 1))).1 + pdC i j (l - 1) * (pdBasis l (pdT (l + 1))).2.1 + pdC i j l * (pdBasis l (pdT (l + 1))).2.2 =
    pdC i j (l + 1 - 2) * (pdBasis (l + 1) (pdT (l + 1))).1 + pdC i j (l + 1 - 1) * (pdBasis (l + 1) (pdT (l + 1))).2.1 +
      pdC i j (l + 1) * (pdBasis (l + 1) (pdT (l + 1))).2.2 := by
  fin_cases hl <;> norm_num [pdBasis, pdT, pdKnots]

/-- **C192**: each coefficient function of Perez-Driesse is continuous. -/
theorem spline_continuous (i j : ℕ) : Continuous (pdSpline i j) := by
  let P (l : ℕ) (y : ℝ) : ℝ := pdC i j (l - 2) * (pdBasis l y).1 + pdC i j (l - 1) * (pdBasis l y).2.1 + pdC i j l * (pdBasis l y).2.2
  have hP : ∀ l, Continuous (P l) := piece_continuous i j
  have e : pdSpline i j = fun x => if 0.839 ≤ x then P 9 x else if 0.778 ≤ x then P 8 x else if 0.643 ≤ x then P 7 x
      else if 0.487 ≤ x then P 6 x else if 0.333 ≤ x then P 5 x else if 0.187 ≤ x then P 4 x
      else if 0.061 ≤ x then P 3 x else P 2 x := by
    funext x
    unfold pdSpline pdInterval
    dsimp only
    split_ifs <;> rfl
  have m : ∀ l, l ∈ [2, 3, 4, 5, 6, 7, 8] → P l (pdT (l + 1)) = P (l + 1) (pdT (l + 1)) := fun l hl => piece_meets i j l hl
  have k9 : pdT 9 = 0.839 := by norm_num [pdT, pdKnots]
  have k8 : pdT 8 = 0.778 := by norm_num [pdT, pdKnots]
  have k7 : pdT 7 = 0.643 := by norm_num [pdT, pdKnots]
  have k6 : pdT 6 = 0.487 := by norm_num [pdT, pdKnots]
  have k5 : pdT 5 = 0.333 := by norm_num [pdT, pdKnots]
  have k4 : pdT 4 = 0.187 := by norm_num [pdT, pdKnots]
  have k3 : pdT 3 = 0.061 := by norm_num [pdT, pdKnots]
  rw [e]
  refine Continuous.if_le (hP 9) ?_ continuous_const continuous_id ?_
  · refine Continuous.if_le (hP 8) ?_ continuous_const continuous_id ?_
    · refine Continuous.if_le (hP 7) ?_ continuous_const continuous_id ?_
      · refine Continuous.if_le (hP 6) ?_ continuous_const continuous_id ?_
        · refine Continuous.if_le (hP 5) ?_ continuous_const continuous_id ?_
          · refine Continuous.if_le (hP 4) ?_ continuous_const continuous_id ?_
            · refine Continuous.if_le (hP 3) (hP 2) continuous_const continuous_id ?_
              rintro x rfl
              have := m 2 (by decide)
              rw [k3] at this; exact this.symm
            · rintro x rfl
              rw [if_pos (by norm_num)]
              have := m 3 (by decide)
              rw [k4] at this; exact this.symm
          · rintro x rfl
            rw [if_pos (by norm_num)]
            have := m 4 (by decide)
            rw [k5] at this; exact this.symm
        · rintro x rfl
          rw [if_pos (by norm_num)]
          have := m 5 (by decide)
          rw [k6] at this; exact this.symm
      · rintro x rfl
        rw [if_pos (by norm_num)]
        have := m 6 (by decide)
        rw [k7] at this; exact this.symm
    · rintro x rfl
      rw [if_pos (by norm_num)]
      have := m 7 (by decide)
      rw [k8] at this; exact this.symm
  · rintro x rfl
    rw [if_pos (by norm_num)]
    have := m 8 (by decide)
    rw [k9] at this; exact this.symm

/-- **C192**: if every argument of `perez_driesse` varies continuously with something - time, say - with diffuse light present, direct light
not negative, the sun above the horizon and a positive air mass, then so does its result. -/
theorem driesse_continuous {X : Type} [TopologicalSpace X] {tilt az dhi dni ext zen saz am : X → ℝ} (h1 : Continuous tilt)
    (h2 : Continuous az) (h3 : Continuous dhi) (h4 : Continuous dni) (h5 : Continuous ext) (h6 : Continuous zen) (h7 : Continuous saz)
    (h8 : Continuous am) (hd : ∀ x, 0 < dhi x) (hn : ∀ x, 0 ≤ dni x) (he : ∀ x, 0 < ext x) (hz : ∀ x, 0 ≤ zen x) (hz' : ∀ x, zen x < 90)
    (ha : ∀ x, 0 < am x) :
    ∃ g : X → ℝ, Continuous g ∧ ∀ x, (perezDriesse pdF (fin (tilt x)) (fin (az x)) (fin (dhi x)) (fin (dni x)) (fin (ext x)) (fin (zen x))
      (fin (saz x)) (some (fin (am x)))).poa_sky_diffuse = fin (g x) := by
  let ratio (x : X) : ℝ := dni x / (dhi x + dni x)
  let kt (x : X) : ℝ := 1.041 * (zen x * (Real.pi / 180)) ^ 3
  let zeta (x : X) : ℝ := ratio x / (1 - kt x * (ratio x - 1))
  let delta (x : X) : ℝ := dhi x / (ext x / am x)
  have hs : ∀ x, dhi x + dni x ≠ 0 := fun x => by have := hd x; have := hn x; positivity
  have hden : ∀ x, 0 < 1 - kt x * (ratio x - 1) := by
    intro x
    have q1 : ratio x ≤ 1 := (div_le_one (by have := hd x; have := hn x; positivity)).mpr (by have := hd x; linarith)
    have q2 : 0 ≤ kt x := by have := hz x; have := Real.pi_pos; positivity
    nlinarith
  have cr : Continuous ratio := h4.div (h3.add h4) hs
  have ck : Continuous kt := by fun_prop
  have cz : Continuous zeta := cr.div (by fun_prop) fun x => (hden x).ne'
  have cd : Continuous delta := h3.div (h5.div h8 fun x => (ha x).ne') fun x => (div_pos (he x) (ha x)).ne'
  have hzeta : ∀ x, calcZeta (fin (dhi x)) (fin (dni x)) (fin (zen x)) = fin (zeta x) := by
    intro x
    simp only [calcZeta, npwhere, zero_eq, eqv_fin, (hd x).ne', if_false, fin_add, fin_div (hs x), one_eq,
      ofScientific_eq, radians_fin, fin_pow, fin_mul, fin_sub]
    exact fin_div (hden x).ne'
  have hdelta : ∀ x, calcDelta (fin (dhi x)) (fin (ext x)) (fin (zen x)) (some (fin (am x))) = fin (delta x) := by
    intro x
    have : ¬ (90 : Fl) ≤ fin (zen x) := by rw [ofNat_eq, fin_le]; exact not_le.mpr (hz' x)
    simp only [calcDelta, Option.getD_some, npwhere, this, if_false, fin_div (ha x).ne', fin_div (div_pos (he x) (ha x)).ne', delta]
  let F1 (x : X) : ℝ := min (max (pdSpline 1 1 (zeta x) + pdSpline 1 2 (zeta x) * delta x + pdSpline 1 3 (zeta x) * (zen x * (Real.pi / 180))) 0) 0.9
  let F2 (x : X) : ℝ := pdSpline 2 1 (zeta x) + pdSpline 2 2 (zeta x) * delta x + pdSpline 2 3 (zeta x) * (zen x * (Real.pi / 180))
  have cs : ∀ i j, Continuous fun x => pdSpline i j (zeta x) := fun i j => (spline_continuous i j).comp cz
  have c1 : Continuous F1 := by
    have a := cs 1 1; have b := cs 1 2; have c := cs 1 3
    fun_prop
  have c2 : Continuous F2 := by
    have a := cs 2 1; have b := cs 2 2; have c := cs 2 3
    fun_prop
  refine ⟨fun x => max (dhi x * (0.5 * (1 - F1 x) * (1 + cosDeg (tilt x)) +
      F1 x * max (dot (dirVec (tilt x) (az x)) (dirVec (zen x) (saz x))) 0 / max (cosDeg (zen x)) (cosDeg 85) + F2 x * sinDeg (tilt x))) 0, ?_, ?_⟩
  · have cdiv : Continuous fun x => F1 x * max (dot (dirVec (tilt x) (az x)) (dirVec (zen x) (saz x))) 0 / max (cosDeg (zen x)) (cosDeg 85) := by
      refine Continuous.div ?_ ?_ fun x => (perezB_pos (zen x)).ne'
      · unfold dot dirVec sinDeg cosDeg; fun_prop
      · unfold cosDeg; fun_prop
    unfold cosDeg sinDeg at *
    fun_prop
  · intro x
    simp only [perezDriesse, hzeta, hdelta, pdF, radians_fin, fin_mul, fin_add, zero_eq, ofScientific_eq, clip_fin, perezTerms_fin, maximum_fin]
    rfl

/-- The conditions of the previous theorem are met, e.g., by growing direct light. -/
example := driesse_continuous (X := ℝ) (tilt := fun _ => 90) (az := fun _ => 180) (dhi := fun _ => 100) (dni := fun x => |x|)
  (ext := fun _ => 1400) (zen := fun _ => 30) (saz := fun _ => 180) (am := fun _ => 1.4) continuous_const continuous_const continuous_const
  continuous_abs continuous_const continuous_const continuous_const continuous_const (fun _ => by norm_num) (fun x => abs_nonneg x)
  (fun _ => by norm_num) (fun _ => by norm_num) (fun _ => by norm_num) (fun _ => by norm_num)

end Pvlib.Props.PerezContinuity
end
