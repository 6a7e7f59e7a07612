import Verif.Props.Transposition

/-! # Property C205: overcast skies and bright ground -/

noncomputable section
open scoped Classical
open Real
namespace Pvlib.Props.Overcast
open Fl Pvlib.Irradiance Pvlib.Tools Pvlib.Spec Pvlib.Props.Geometry Pvlib.Props.Transposition

/-- The models that are isotropic under an overcast sky. -/
def plain : List String := ["isotropic", "klucher", "haydavies", "reindl"]

private theorem half_nonneg (t : ℝ) : 0 ≤ 1 + cosDeg t := by
  have := Real.neg_one_le_cos (t * (π / 180)); unfold cosDeg; linarith

/-- **C205a.** Under an overcast sky (no direct light, all light diffuse) the models of Klucher, Hay-Davies and Reindl give what the
isotropic one gives: the diffuse irradiance times the part of the sky the plane sees. -/
theorem overcast_isotropic (tbl : String → Option PerezTable) (f : ℕ → ℕ → Fl → Fl) {tilt az zen saz d e : ℝ} (hd : 0 ≤ d) (he : e ≠ 0)
    (am : Option Fl) (mp : String) {model : String} (hm : pyLower model ∈ plain) :
    ∃ s, getSkyDiffuse tbl f (fin tilt) (fin az) (fin zen) (fin saz) (fin 0) (fin d) (fin d) (some (fin e)) am model mp false = .ok s ∧
      s.poa_sky_diffuse = fin (d * ((1 + cosDeg tilt) / 2)) := by
  unfold getSkyDiffuse
  generalize pyLower model = m at hm
  dsimp only
  rw [if_neg (by simp), if_neg (by simp)]
  have hh := half_nonneg tilt
  have hb : 0 ≤ d * ((1 + cosDeg tilt) / 2) := mul_nonneg hd (by linarith)
  have hpr : ∃ x : ℝ, projectionRatio (fin tilt) (fin az) (fin zen) (fin saz) = fin x := by
    unfold projectionRatio
    dsimp only
    rw [aoiProjection_dot, cosd_fin, zero_eq, maximum_fin, ofScientific_eq, maximum_fin, fin_div]
    · exact ⟨_, rfl⟩
    · exact (lt_of_lt_of_le (by norm_num) (le_max_right _ _)).ne'
  obtain ⟨rb, hrb⟩ := hpr
  simp only [plain, List.mem_cons, List.not_mem_nil, or_false] at hm
  rcases hm with rfl | rfl | rfl | rfl
  · rw [if_pos rfl]
    refine ⟨_, rfl, ?_⟩
    simp only [isotropic, cosd_fin, one_eq, fin_add, fin_mul, ofScientific_eq, Bool.false_eq_true, if_false, fin_inj, cosDeg]
    norm_num; ring
  · rw [if_neg (by decide), if_pos rfl]
    refine ⟨_, rfl, ?_⟩
    have hF : npwhere (isnan (1 - (fin d / fin d) ^ 2)) 0 (1 - (fin d / fin d) ^ 2) = fin 0 := by
      by_cases h0 : d = 0
      · subst h0
        have : (fin 0 : Fl) / fin 0 = nan := by rw [fin_div_zero]; simp [infSign]
        rw [this]; simp [npwhere]
      · rw [fin_div h0, div_self h0]; simp [npwhere]
    dsimp only [klucher]
    rw [hF, aoiProjection_dot]
    simp only [cosd_fin, sind_fin, one_eq, zero_eq, fin_add, fin_mul, ofScientific_eq, maximum_fin, fin_pow, fin_inj, cosDeg]
    rw [show ((0.5 : ℝ)) = 1 / 2 by norm_num]; ring
  · rw [if_neg (by decide), if_neg (by decide), if_pos rfl]
    refine ⟨_, rfl, ?_⟩
    simp only [haydavies, haydaviesRb, hrb, Option.getD_some, fin_div he, zero_div, one_eq, zero_eq, fin_sub, fin_mul, cosd_fin, fin_add,
      ofScientific_eq, maximum_fin, Bool.false_eq_true, if_false, fin_inj]
    rw [show Real.cos (tilt * (π / 180)) = cosDeg tilt from rfl, zero_mul, mul_zero, max_self, add_zero, max_eq_left]
    · norm_num [mul_div_assoc]; left; ring
    · norm_num; nlinarith
  · rw [if_neg (by decide), if_neg (by decide), if_neg (by decide), if_pos rfl]
    refine ⟨_, rfl, ?_⟩
    have hH : npwhere (eqv (fin d) 0) 0 (maximum (fin 0 * cosd (fin zen)) 0 / fin d) = fin 0 := by
      by_cases h0 : d = 0
      · subst h0; simp [npwhere, eqv]
      · rw [cosd_fin, fin_mul, zero_eq, maximum_fin, zero_mul, max_self, fin_div h0, zero_div]; simp [npwhere]
    dsimp only [reindl]
    rw [hH, hrb]
    simp only [Option.getD_some, fin_div he, zero_div, ofNat_eq, one_eq, fin_sub, cosd_fin, fin_add, fin_div (show (2 : ℝ) ≠ 0 by norm_num),
      sind_fin, fin_mul, Bool.false_eq_true, if_false, fin_pow]
    rw [sqrt_fin le_rfl, Real.sqrt_zero]
    simp only [fin_mul, fin_add, fin_inj, cosDeg, zero_mul, mul_zero, add_zero, sub_zero, one_mul]

/-- **C205b.** Between such a sky and a ground that reflects everything, every plane receives the same, whatever its tilt. -/
theorem uniform_surroundings (tbl : String → Option PerezTable) (f : ℕ → ℕ → Fl → Fl) {tilt az zen saz d e : ℝ} (hd : 0 ≤ d) (he : e ≠ 0)
    (am : Option Fl) (mp : String) {model : String} (hm : pyLower model ∈ plain) :
    ∃ p, getTotalIrradiance tbl f (fin tilt) (fin az) (fin zen) (fin saz) (fin 0) (fin d) (fin d) (some (fin e)) am (fin 1) none model mp
      false = .ok p ∧ p.poa_global = fin d := by
  obtain ⟨s, hs, hv⟩ := overcast_isotropic tbl f (tilt := tilt) (az := az) (zen := zen) (saz := saz) hd he am mp hm
  obtain ⟨x, hx, -⟩ := aoi_spec tilt az zen saz
  simp only [getTotalIrradiance, hs, groundDiffuse, bind, Except.bind, pure, Except.pure]
  refine ⟨_, rfl, ?_⟩
  simp only [poaComponents, hv, hx, radians_fin, cos_fin, ofScientific_eq, one_eq, zero_eq, fin_mul, fin_sub, fin_add, maximum_fin, fin_inj, cosDeg]
  rw [zero_mul, max_self]
  norm_num
  ring

/-- **C205c.** Under every model, with the other inputs equal, a brighter ground adds to the plane's irradiance `ghi` times the rise in
albedo times the part of the ground the plane sees, through the ground-diffuse component only. -/
theorem albedo_step (tbl : String → Option PerezTable) (f : ℕ → ℕ → Fl → Fl) {tilt ghi a b G : ℝ} {az zen saz dni dhi : Fl}
    {e am : Option Fl} {model mp : String} {rc : Bool} {p : Poa}
    (h : getTotalIrradiance tbl f (fin tilt) az zen saz dni (fin ghi) dhi e am (fin a) none model mp rc = .ok p)
    (hG : p.poa_global = fin G) :
    ∃ q g, getTotalIrradiance tbl f (fin tilt) az zen saz dni (fin ghi) dhi e am (fin b) none model mp rc = .ok q ∧
      p.poa_ground_diffuse = fin g ∧ q.poa_ground_diffuse = fin (g + ghi * (b - a) * ((1 - cosDeg tilt) / 2)) ∧
      q.poa_global = fin (G + ghi * (b - a) * ((1 - cosDeg tilt) / 2)) ∧
      q.poa_direct = p.poa_direct ∧ q.poa_sky_diffuse = p.poa_sky_diffuse ∧ q.components = p.components := by
  unfold getTotalIrradiance at h ⊢
  cases hs : getSkyDiffuse tbl f (fin tilt) az zen saz dni (fin ghi) dhi e am model mp rc with
  | error x => rw [hs] at h; simp [bind, Except.bind] at h
  | ok s =>
    rw [hs] at h
    simp only [groundDiffuse, bind, Except.bind, pure, Except.pure, Except.ok.injEq] at h ⊢
    subst h
    simp only [poaComponents] at hG
    obtain ⟨x, y, hx, hy, hxy⟩ := add_eq_fin hG
    obtain ⟨u, v, hu, hv, huv⟩ := add_eq_fin hy
    have hv' : v = ghi * a * (1 - cosDeg tilt) * 0.5 := by
      simp only [radians_fin, cos_fin, ofScientific_eq, one_eq, fin_mul, fin_sub, fin_inj] at hv
      rw [← hv]
    refine ⟨_, v, rfl, hv, ?_, ?_, rfl, rfl, rfl⟩
    · simp only [poaComponents, radians_fin, cos_fin, ofScientific_eq, one_eq, fin_mul, fin_sub, fin_inj]
      rw [hv']; simp only [cosDeg]; norm_num; ring
    · simp only [poaComponents, hx, hu, radians_fin, cos_fin, ofScientific_eq, one_eq, fin_mul, fin_sub, fin_add, fin_inj]
      rw [hxy, huv, hv']; simp only [cosDeg]; norm_num; ring

/-- **C205c, order.** So a brighter ground never lowers the plane's irradiance. -/
theorem albedo_monotone (tbl : String → Option PerezTable) (f : ℕ → ℕ → Fl → Fl) {tilt ghi a b G : ℝ} {az zen saz dni dhi : Fl}
    {e am : Option Fl} {model mp : String} {rc : Bool} {p : Poa} (hg : 0 ≤ ghi) (hab : a ≤ b)
    (h : getTotalIrradiance tbl f (fin tilt) az zen saz dni (fin ghi) dhi e am (fin a) none model mp rc = .ok p)
    (hG : p.poa_global = fin G) :
    ∃ q G', getTotalIrradiance tbl f (fin tilt) az zen saz dni (fin ghi) dhi e am (fin b) none model mp rc = .ok q ∧
      q.poa_global = fin G' ∧ G ≤ G' := by
  obtain ⟨q, g, hq, -, -, hv, -⟩ := albedo_step tbl f (b := b) h hG
  refine ⟨q, _, hq, hv, ?_⟩
  have h1 : cosDeg tilt ≤ 1 := Real.cos_le_one _
  have : 0 ≤ ghi * (b - a) * ((1 - cosDeg tilt) / 2) := mul_nonneg (mul_nonneg hg (by linarith)) (by linarith)
  linarith

/-- **C205d.** Hay and Davies' model takes the circumsolar share out of the sky: on a plane that faces away from the sun, with `ghi`, `dhi` and
the rest equal, more direct light means a strictly lower irradiance. -/
theorem facing_away_falls (tbl : String → Option PerezTable) (f : ℕ → ℕ → Fl → Fl) {tilt az zen saz d e g a n n' : ℝ} (hd : 0 < d)
    (ht : -1 < cosDeg tilt) (haway : dot (dirVec tilt az) (dirVec zen saz) ≤ 0) (h0 : 0 ≤ n) (hn : n < n') (hne : n' ≤ e)
    (am : Option Fl) (mp : String) :
    ∃ p q G G', getTotalIrradiance tbl f (fin tilt) (fin az) (fin zen) (fin saz) (fin n) (fin g) (fin d) (some (fin e)) am (fin a) none
        "haydavies" mp false = .ok p ∧
      getTotalIrradiance tbl f (fin tilt) (fin az) (fin zen) (fin saz) (fin n') (fin g) (fin d) (some (fin e)) am (fin a) none
        "haydavies" mp false = .ok q ∧ p.poa_global = fin G ∧ q.poa_global = fin G' ∧ G' < G := by
  have key : ∀ m : ℝ, 0 ≤ m → m ≤ e → ∃ p, getTotalIrradiance tbl f (fin tilt) (fin az) (fin zen) (fin saz) (fin m) (fin g) (fin d)
      (some (fin e)) am (fin a) none "haydavies" mp false = .ok p ∧
      p.poa_global = fin (d * (1 - m / e) * ((1 + cosDeg tilt) / 2) + g * a * ((1 - cosDeg tilt) / 2)) := by
    intro m hm hme
    have he : 0 < e := by linarith
    have hR : projectionRatio (fin tilt) (fin az) (fin zen) (fin saz) = fin 0 := by
      unfold projectionRatio
      dsimp only
      rw [aoiProjection_dot, cosd_fin, zero_eq, maximum_fin, ofScientific_eq, maximum_fin, fin_div, max_eq_right haway, zero_div]
      exact (lt_of_lt_of_le (by norm_num) (le_max_right _ _)).ne'
    obtain ⟨x, hx, hxd⟩ := aoi_spec tilt az zen saz
    unfold getTotalIrradiance getSkyDiffuse
    rw [show pyLower "haydavies" = "haydavies" from by decide]
    simp only [Bool.false_eq_true, false_and, if_false, Option.isNone_some, String.reduceEq, if_true, groundDiffuse, bind, Except.bind, pure,
      Except.pure]
    refine ⟨_, rfl, ?_⟩
    have hq : m / e ≤ 1 := (div_le_one he).2 hme
    simp only [poaComponents, haydavies, haydaviesRb, hR, hx, Option.getD_some, fin_div he.ne', radians_fin, cos_fin, cosd_fin, ofScientific_eq,
      one_eq, zero_eq, fin_mul, fin_sub, fin_add, maximum_fin, fin_inj]
    rw [show Real.cos (x * (π / 180)) = dot (dirVec tilt az) (dirVec zen saz) from hxd.2.2]
    rw [max_eq_right (mul_nonpos_of_nonneg_of_nonpos hm haway), mul_zero, mul_zero, max_self, max_eq_left]
    · simp only [cosDeg]; norm_num; ring
    · refine mul_nonneg (mul_nonneg hd.le (by linarith)) (mul_nonneg (by norm_num) ?_)
      have : -1 < Real.cos (tilt * (π / 180)) := ht
      linarith
  obtain ⟨p, hp, hpv⟩ := key n h0 (by linarith)
  obtain ⟨q, hq, hqv⟩ := key n' (by linarith) hne
  refine ⟨p, q, _, _, hp, hq, hpv, hqv, ?_⟩
  have he : 0 < e := by linarith
  have : n / e < n' / e := div_lt_div_of_pos_right hn he
  have h2 : 0 < d * ((1 + cosDeg tilt) / 2) := mul_pos hd (by linarith)
  nlinarith

/-! ### Concrete cases -/

example : ∃ p, getTotalIrradiance (fun _ => none) pdF (fin 30) (fin 180) (fin 60) (fin 170) (fin 0) (fin 200) (fin 200) (some (fin 1367)) none (fin 1)
    none "Reindl" "x" false = .ok p ∧ p.poa_global = fin 200 :=
  uniform_surroundings _ _ (by norm_num) (by norm_num) _ _ (by decide)

example : ∃ s, getSkyDiffuse (fun _ => none) pdF (fin 90) (fin 180) (fin 60) (fin 170) (fin 0) (fin 0) (fin 0) (some (fin 1367)) none "klucher" "x" false
    = .ok s ∧ s.poa_sky_diffuse = fin (0 * ((1 + cosDeg 90) / 2)) :=
  overcast_isotropic _ _ le_rfl (by norm_num) _ _ (by decide)

example : ∃ p q G G', getTotalIrradiance (fun _ => none) pdF (fin 90) (fin 0) (fin 0) (fin 180) (fin 100) (fin 500) (fin 200) (some (fin 1367)) none
        (fin 0.2) none "haydavies" "x" false = .ok p ∧
      getTotalIrradiance (fun _ => none) pdF (fin 90) (fin 0) (fin 0) (fin 180) (fin 900) (fin 500) (fin 200) (some (fin 1367)) none (fin 0.2) none
        "haydavies" "x" false = .ok q ∧ p.poa_global = fin G ∧ q.poa_global = fin G' ∧ G' < G := by
  have h90 : cosDeg 90 = 0 := by unfold cosDeg; rw [show (90 : ℝ) * (π / 180) = π / 2 by ring, Real.cos_pi_div_two]
  refine facing_away_falls _ _ (by norm_num) (by rw [h90]; norm_num) ?_ (by norm_num) (by norm_num) (by norm_num) _ _
  simp [dot, dirVec, h90, sinDeg]

example : ∃ q G', getTotalIrradiance (fun _ => none) pdF (fin 30) (fin 180) (fin 60) (fin 170) (fin 0) (fin 200) (fin 200) (some (fin 1367)) none (fin 1.5)
    none "Reindl" "x" false = .ok q ∧ q.poa_global = fin G' ∧ 200 ≤ G' := by
  obtain ⟨p, hp, hv⟩ := uniform_surroundings (fun _ => none) pdF (tilt := 30) (az := 180) (zen := 60) (saz := 170) (d := 200) (e := 1367)
    (by norm_num) (by norm_num) none "x" (model := "Reindl") (by decide)
  exact albedo_monotone _ _ (by norm_num) (by norm_num) hp hv

end Pvlib.Props.Overcast
end
