import Verif.Props.Transposition

/-! # Property C214: the two sides of a sheet -/

noncomputable section
open scoped Classical
open Real
namespace Pvlib.Props.TwoSides
open Fl Pvlib.Irradiance Pvlib.Tools Pvlib.Spec Pvlib.Props.Geometry Pvlib.Props.Transposition

/-- The planes `(t, a)` and `(t', a')` are the two sides of one sheet: their normals are opposite. -/
def Opposite (t a t' a' : ℝ) : Prop :=
  (dirVec t' a').x = -(dirVec t a).x ∧ (dirVec t' a').y = -(dirVec t a).y ∧ (dirVec t' a').z = -(dirVec t a).z

/-- The back of a plane has the tilt `180 - tilt` and looks the other way. -/
theorem opposite_flip (t a : ℝ) : Opposite t a (180 - t) (a + 180) := by
  have e1 : (180 - t) * (π / 180) = π - t * (π / 180) := by ring
  have e2 : (a + 180) * (π / 180) = a * (π / 180) + π := by ring
  refine ⟨?_, ?_, ?_⟩ <;> simp only [dirVec, cosDeg, sinDeg, e1, e2, Real.cos_pi_sub, Real.sin_pi_sub, Real.cos_add_pi, Real.sin_add_pi] <;>
    ring

private theorem dot_back {t a t' a' : ℝ} (h : Opposite t a t' a') (zen saz : ℝ) :
    dot (dirVec t' a') (dirVec zen saz) = -dot (dirVec t a) (dirVec zen saz) := by
  simp only [dot, h.1, h.2.1, h.2.2]; ring

private theorem cos_back {t a t' a' : ℝ} (h : Opposite t a t' a') : cosDeg t' = -cosDeg t := h.2.2

/-- **C214a.** The angles of incidence on the two sides add up to 180 degrees. -/
theorem aoi_back {t a t' a' : ℝ} (h : Opposite t a t' a') (zen saz : ℝ) :
    ∃ x, aoi (fin t) (fin a) (fin zen) (fin saz) = fin x ∧ aoi (fin t') (fin a') (fin zen) (fin saz) = fin (180 - x) := by
  obtain ⟨x, hx, h0, h1, hc⟩ := aoi_spec t a zen saz
  obtain ⟨y, hy, k0, k1, kc⟩ := aoi_spec t' a' zen saz
  refine ⟨x, hx, ?_⟩
  rw [hy]
  congr 1
  rw [dot_back h, ← hc] at kc
  have e : (180 - x) * (π / 180) = π - x * (π / 180) := by ring
  have h2 : cosDeg y = cosDeg (180 - x) := by
    rw [kc]; simp only [cosDeg, e, Real.cos_pi_sub]
  have hp := Real.pi_pos
  have := Real.injOn_cos (x₁ := y * (π / 180)) (x₂ := (180 - x) * (π / 180)) ⟨by positivity, by nlinarith⟩
    ⟨mul_nonneg (by linarith) (by positivity), by nlinarith⟩ h2
  exact mul_right_cancel₀ (by positivity) this

example := aoi_back (opposite_flip 30 180) 40 135

/-- **C214b.** With every model of the sky: direct light falls on one side only, the two sides together receive `dni` times the cosine of
the smaller angle of incidence of the two, and together they receive all the light the ground reflects. -/
theorem direct_and_ground {t a t' a' : ℝ} (h : Opposite t a t' a') (tbl : String → Option PerezTable) (f : ℕ → ℕ → Fl → Fl)
    {zen saz dni ghi al : ℝ} (hd : 0 ≤ dni) {dhi : Fl} {e am : Option Fl} {model mp : String} {rc : Bool} {p q : Poa}
    (hp : getTotalIrradiance tbl f (fin t) (fin a) (fin zen) (fin saz) (fin dni) (fin ghi) dhi e am (fin al) none model mp rc = .ok p)
    (hq : getTotalIrradiance tbl f (fin t') (fin a') (fin zen) (fin saz) (fin dni) (fin ghi) dhi e am (fin al) none model mp rc = .ok q) :
    (p.poa_direct = fin 0 ∨ q.poa_direct = fin 0) ∧
    p.poa_direct + q.poa_direct = fin (dni * |dot (dirVec t a) (dirVec zen saz)|) ∧
    p.poa_ground_diffuse + q.poa_ground_diffuse = fin (ghi * al) := by
  have d1 := total_direct _ _ _ _ _ _ _ _ _ _ _ _ _ _ _ _ _ hp
  have d2 := total_direct _ _ _ _ _ _ _ _ _ _ _ _ _ _ _ _ _ hq
  have g1 := (total_sums _ _ _ _ _ _ _ _ _ _ _ _ _ _ _ _ _ hp).2.2.2.2
  have g2 := (total_sums _ _ _ _ _ _ _ _ _ _ _ _ _ _ _ _ _ hq).2.2.2.2
  rw [dot_back h] at d2
  set c := dot (dirVec t a) (dirVec zen saz)
  have hg : ∀ x : ℝ, groundDiffuse (fin x) (fin ghi) (fin al) none = .ok (fin (ghi * al * (1 - cosDeg x) * 0.5)) := by
    intro x
    simp only [groundDiffuse, pure, Except.pure, radians_fin, cos_fin, ofScientific_eq, one_eq, fin_mul, fin_sub, cosDeg]
  rw [hg] at g1 g2
  refine ⟨?_, ?_, ?_⟩
  · rcases le_total 0 c with h0 | h0
    · right; rw [d2, max_eq_right]; nlinarith
    · left; rw [d1, max_eq_right]; nlinarith
  · rw [d1, d2, fin_add]
    congr 1
    rcases le_total 0 c with h0 | h0
    · rw [abs_of_nonneg h0, max_eq_left (mul_nonneg hd h0), max_eq_right (by nlinarith), add_zero]
    · rw [abs_of_nonpos h0, max_eq_right (by nlinarith), max_eq_left (by nlinarith), zero_add]
  · rw [← Except.ok.inj g1, ← Except.ok.inj g2, fin_add, cos_back h]
    congr 1
    norm_num
    ring

private theorem total_of_parts {tbl : String → Option PerezTable} {f : ℕ → ℕ → Fl → Fl} {t a zen saz dni ghi dhi al : Fl} {e am : Option Fl}
    {model mp : String} {s : Sky} (hs : getSkyDiffuse tbl f t a zen saz dni ghi dhi e am model mp false = .ok s) :
    ∃ p, getTotalIrradiance tbl f t a zen saz dni ghi dhi e am al none model mp false = .ok p ∧ p.poa_sky_diffuse = s.poa_sky_diffuse := by
  unfold getTotalIrradiance
  rw [hs]
  exact ⟨_, rfl, rfl⟩

private theorem sum_parts {p q : Poa} {tbl : String → Option PerezTable} {f : ℕ → ℕ → Fl → Fl} {t a zen saz dni ghi dhi al t' a' : Fl}
    {e am : Option Fl} {model mp : String} {rc : Bool} {D S S' G : ℝ}
    (hp : getTotalIrradiance tbl f t a zen saz dni ghi dhi e am al none model mp rc = .ok p)
    (hq : getTotalIrradiance tbl f t' a' zen saz dni ghi dhi e am al none model mp rc = .ok q)
    (h1 : p.poa_direct + q.poa_direct = fin D) (h2 : p.poa_sky_diffuse = fin S) (h2' : q.poa_sky_diffuse = fin S')
    (h3 : p.poa_ground_diffuse + q.poa_ground_diffuse = fin G) : p.poa_global + q.poa_global = fin (D + (S + S') + G) := by
  obtain ⟨e1, e2, -⟩ := total_sums _ _ _ _ _ _ _ _ _ _ _ _ _ _ _ _ _ hp
  obtain ⟨k1, k2, -⟩ := total_sums _ _ _ _ _ _ _ _ _ _ _ _ _ _ _ _ _ hq
  obtain ⟨d, d', hd, hd', rfl⟩ := add_eq_fin h1
  obtain ⟨g, g', hg, hg', rfl⟩ := add_eq_fin h3
  rw [e1, e2, k1, k2, hd, hd', h2, h2', hg, hg']
  simp only [fin_add, fin_inj]
  ring

/-- **C214c.** Under an isotropic sky the two sides of every sheet together receive all diffuse light of the sky and all light the ground
reflects, whatever its tilt, and the direct light its area catches. -/
theorem isotropic_both {t a t' a' : ℝ} (h : Opposite t a t' a') (tbl : String → Option PerezTable) (f : ℕ → ℕ → Fl → Fl)
    {zen saz dni ghi dhi al : ℝ} (hd : 0 ≤ dni) (e am : Option Fl) {model : String} (hm : pyLower model = "isotropic") (mp : String) :
    ∃ p q, getTotalIrradiance tbl f (fin t) (fin a) (fin zen) (fin saz) (fin dni) (fin ghi) (fin dhi) e am (fin al) none model mp false = .ok p ∧
      getTotalIrradiance tbl f (fin t') (fin a') (fin zen) (fin saz) (fin dni) (fin ghi) (fin dhi) e am (fin al) none model mp false = .ok q ∧
      p.poa_sky_diffuse + q.poa_sky_diffuse = fin dhi ∧
      p.poa_global + q.poa_global = fin (dni * |dot (dirVec t a) (dirVec zen saz)| + dhi + ghi * al) := by
  have hs : ∀ x y : ℝ, ∃ s, getSkyDiffuse tbl f (fin x) (fin y) (fin zen) (fin saz) (fin dni) (fin ghi) (fin dhi) e am model mp false = .ok s ∧
      s.poa_sky_diffuse = fin (dhi * ((1 + cosDeg x) / 2)) := by
    intro x y
    unfold getSkyDiffuse
    rw [hm]
    dsimp only
    rw [if_neg (by simp), if_neg (by simp), if_pos rfl]
    refine ⟨_, rfl, ?_⟩
    simp only [isotropic, cosd_fin, one_eq, fin_add, fin_mul, ofScientific_eq, Bool.false_eq_true, if_false, fin_inj, cosDeg]
    norm_num; ring
  obtain ⟨s, hs1, hv1⟩ := hs t a
  obtain ⟨s', hs2, hv2⟩ := hs t' a'
  obtain ⟨p, hp, ep⟩ := total_of_parts (al := fin al) hs1
  obtain ⟨q, hq, eq⟩ := total_of_parts (al := fin al) hs2
  obtain ⟨-, hD, hG⟩ := direct_and_ground h tbl f hd hp hq
  rw [hv1] at ep
  rw [hv2, cos_back h] at eq
  refine ⟨p, q, hp, hq, ?_, ?_⟩
  · rw [ep, eq, fin_add]; congr 1; ring
  · rw [sum_parts hp hq hD ep eq hG]; congr 1; ring

example := isotropic_both (opposite_flip 30 180) (fun _ => none) (fun _ _ => id) (zen := 40) (saz := 135) (dni := 800) (ghi := 700) (dhi := 100)
  (al := 0.25) (by norm_num) none none (model := "Isotropic") (by decide) "x"

/-- **C214d.** With the model of Hay and Davies they receive the circumsolar share from one side only, magnified like the direct light: all the
diffuse light as far as it is isotropic, and the circumsolar part times `|cos aoi|` over the cosine of the zenith (at least 0.01745). -/
theorem haydavies_both {t a t' a' : ℝ} (h : Opposite t a t' a') (tbl : String → Option PerezTable) (f : ℕ → ℕ → Fl → Fl)
    {zen saz dni ghi dhi ext al : ℝ} (hd : 0 ≤ dni) (hx : dni ≤ ext) (he : 0 < ext) (hh : 0 ≤ dhi) (am : Option Fl) {model : String}
    (hm : pyLower model = "haydavies") (mp : String) :
    ∃ p q, getTotalIrradiance tbl f (fin t) (fin a) (fin zen) (fin saz) (fin dni) (fin ghi) (fin dhi) (some (fin ext)) am (fin al) none model
        mp false = .ok p ∧
      getTotalIrradiance tbl f (fin t') (fin a') (fin zen) (fin saz) (fin dni) (fin ghi) (fin dhi) (some (fin ext)) am (fin al) none model
        mp false = .ok q ∧
      p.poa_sky_diffuse + q.poa_sky_diffuse = fin (dhi * (1 - dni / ext) +
        dhi * (dni / ext) * (|dot (dirVec t a) (dirVec zen saz)| / max (cosDeg zen) 0.01745)) ∧
      p.poa_global + q.poa_global = fin (dni * |dot (dirVec t a) (dirVec zen saz)| + (dhi * (1 - dni / ext) +
        dhi * (dni / ext) * (|dot (dirVec t a) (dirVec zen saz)| / max (cosDeg zen) 0.01745)) + ghi * al) := by
  have hz : 0 < max (cosDeg zen) 0.01745 := lt_of_lt_of_le (by norm_num) (le_max_right _ _)
  have hA : 0 ≤ dni / ext := div_nonneg hd he.le
  have hA1 : dni / ext ≤ 1 := (div_le_one he).2 hx
  have hs : ∀ x y : ℝ, ∃ s, getSkyDiffuse tbl f (fin x) (fin y) (fin zen) (fin saz) (fin dni) (fin ghi) (fin dhi) (some (fin ext)) am model mp
        false = .ok s ∧ s.poa_sky_diffuse = fin (dhi * (1 - dni / ext) * ((1 + cosDeg x) / 2) +
          dhi * ((dni / ext) * (max (dot (dirVec x y) (dirVec zen saz)) 0 / max (cosDeg zen) 0.01745))) := by
    intro x y
    unfold getSkyDiffuse
    rw [hm]
    dsimp only
    rw [if_neg (by simp), if_neg (by simp), if_neg (by decide), if_neg (by decide), if_pos rfl]
    refine ⟨_, rfl, ?_⟩
    have hR : projectionRatio (fin x) (fin y) (fin zen) (fin saz) =
        fin (max (dot (dirVec x y) (dirVec zen saz)) 0 / max (cosDeg zen) 0.01745) := by
      unfold projectionRatio
      dsimp only
      rw [aoiProjection_dot, cosd_fin, zero_eq, maximum_fin, ofScientific_eq, maximum_fin, fin_div]
      exact hz.ne'
    have hc : -1 ≤ Real.cos (x * (π / 180)) := Real.neg_one_le_cos _
    simp only [haydavies, haydaviesRb, hR, Option.getD_some, fin_div he.ne', one_eq, zero_eq, fin_sub, fin_mul, cosd_fin, fin_add,
      ofScientific_eq, maximum_fin, Bool.false_eq_true, if_false, fin_inj]
    rw [max_eq_left, max_eq_left]
    · simp only [cosDeg]
      rw [show (0.5 : ℝ) = 1 / 2 by norm_num]
      ring
    · exact mul_nonneg hh (mul_nonneg hA (div_nonneg (le_max_right _ _) hz.le))
    · exact mul_nonneg (mul_nonneg hh (by linarith)) (mul_nonneg (by norm_num) (by linarith))
  obtain ⟨s, hs1, hv1⟩ := hs t a
  obtain ⟨s', hs2, hv2⟩ := hs t' a'
  obtain ⟨p, hp, ep⟩ := total_of_parts (al := fin al) hs1
  obtain ⟨q, hq, eq⟩ := total_of_parts (al := fin al) hs2
  obtain ⟨-, hD, hG⟩ := direct_and_ground h tbl f hd hp hq
  rw [hv1] at ep
  rw [hv2, cos_back h, dot_back h] at eq
  have habs : ∀ c : ℝ, max c 0 + max (-c) 0 = |c| := by
    intro c
    rcases le_total 0 c with h0 | h0
    · rw [abs_of_nonneg h0, max_eq_left h0, max_eq_right (by linarith), add_zero]
    · rw [abs_of_nonpos h0, max_eq_right h0, max_eq_left (by linarith), zero_add]
  refine ⟨p, q, hp, hq, ?_, ?_⟩
  · rw [ep, eq, fin_add, ← habs]; congr 1; ring
  · rw [sum_parts hp hq hD ep eq hG, ← habs]; congr 1; ring

example := haydavies_both (opposite_flip 30 180) (fun _ => none) (fun _ _ => id) (zen := 40) (saz := 135) (dni := 800) (ghi := 700) (dhi := 100)
  (ext := 1360) (al := 0.25) (by norm_num) (by norm_num) (by norm_num) (by norm_num) none (model := "haydavies") (by decide) "x"

/-- **C214e.** A limit of the model: King's sky brightens with the zenith angle. The two sides of a sheet together receive
`ghi * (0.012 zenith - 0.04)` more than the diffuse light there is, whatever its tilt. -/
theorem king_both {t a t' a' : ℝ} (h : Opposite t a t' a') (tbl : String → Option PerezTable) (f : ℕ → ℕ → Fl → Fl)
    {zen saz dni ghi dhi : ℝ} (hg : 0 ≤ ghi) (hh : 0 ≤ dhi) (hz : 10 / 3 ≤ zen) (e am : Option Fl) {model : String}
    (hm : pyLower model = "king") (mp : String) :
    ∃ p q x y, getSkyDiffuse tbl f (fin t) (fin a) (fin zen) (fin saz) (fin dni) (fin ghi) (fin dhi) e am model mp false = .ok p ∧
      getSkyDiffuse tbl f (fin t') (fin a') (fin zen) (fin saz) (fin dni) (fin ghi) (fin dhi) e am model mp false = .ok q ∧
      p.poa_sky_diffuse = fin x ∧ q.poa_sky_diffuse = fin y ∧ x + y = dhi + ghi * (0.012 * zen - 0.04) := by
  have hs : ∀ x y : ℝ, ∃ s, getSkyDiffuse tbl f (fin x) (fin y) (fin zen) (fin saz) (fin dni) (fin ghi) (fin dhi) e am model mp false = .ok s ∧
      s.poa_sky_diffuse = fin (dhi * ((1 + cosDeg x) / 2) + ghi * (0.012 * zen - 0.04) * ((1 - cosDeg x) / 2)) := by
    intro x y
    unfold getSkyDiffuse
    rw [hm]
    dsimp only
    rw [if_neg (by simp), if_neg (by simp), if_neg (by decide), if_neg (by decide), if_neg (by decide), if_neg (by decide), if_pos rfl]
    refine ⟨_, rfl, ?_⟩
    have hc : -1 ≤ cosDeg x := Real.neg_one_le_cos _
    have hc1 : cosDeg x ≤ 1 := Real.cos_le_one _
    have h2 : (0 : ℝ) ≤ 0.012 * zen - 0.04 := by norm_num; linarith
    simp only [king, cosd_fin, one_eq, zero_eq, ofNat_eq, fin_add, fin_sub, fin_mul, ofScientific_eq, fin_div (show (2 : ℝ) ≠ 0 by norm_num),
      maximum_fin, fin_inj]
    have a1 := mul_nonneg hh (show 0 ≤ (1 + cosDeg x) / 2 by linarith)
    have a2 := mul_nonneg (mul_nonneg hg h2) (show 0 ≤ (1 - cosDeg x) / 2 by linarith)
    rw [show Real.cos (x * (π / 180)) = cosDeg x from rfl, max_eq_left]
    · ring
    · rw [mul_div_assoc, mul_div_assoc]; exact add_nonneg a1 a2
  obtain ⟨s, hs1, hv1⟩ := hs t a
  obtain ⟨s', hs2, hv2⟩ := hs t' a'
  refine ⟨s, s', _, _, hs1, hs2, hv1, hv2, ?_⟩
  rw [cos_back h]
  ring

example := king_both (opposite_flip 30 180) (fun _ => none) (fun _ _ => id) (zen := 40) (saz := 135) (dni := 800) (ghi := 700) (dhi := 100)
  (by norm_num) (by norm_num) (by norm_num) none none (model := "king") (by decide) "x"

end Pvlib.Props.TwoSides
end
