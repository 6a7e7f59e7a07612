import Verif.Props.Transposition
import Mathlib.Topology.Order.OrderClosed
import Mathlib.Topology.Algebra.Order.Field
import Mathlib.Topology.Algebra.Order.LiminfLimsup

/-! # Property C218: transposition has no jumps (isotropic, klucher, haydavies, reindl, king) -/

noncomputable section
open scoped Classical
open Real
namespace Pvlib.Props.TransContinuity
open Fl Pvlib.Irradiance Pvlib.Tools Pvlib.Spec Pvlib.Props.Geometry Pvlib.Props.Transposition

/-- The models without tables. -/
def smooth : List String := ["isotropic", "klucher", "haydavies", "reindl", "king"]

/-- A bounded factor may jump where the other factor is zero. -/
private theorem tame_mul {X : Type} [TopologicalSpace X] {d r : X → ℝ} (hd : Continuous d) (hb : ∀ x, |r x| ≤ 1)
    (hr : ∀ x, d x ≠ 0 → ContinuousAt r x) : Continuous fun x => d x * r x := by
  rw [continuous_iff_continuousAt]
  intro x
  by_cases h : d x = 0
  · unfold ContinuousAt
    dsimp only
    rw [h, zero_mul]
    refine squeeze_zero_norm (a := fun x => |d x|) (fun y => ?_) ?_
    · rw [Real.norm_eq_abs, abs_mul]
      exact mul_le_of_le_one_right (abs_nonneg _) (hb y)
    · have : ContinuousAt (fun x => |d x|) x := hd.abs.continuousAt
      unfold ContinuousAt at this
      dsimp only at this
      rwa [h, abs_zero] at this
  · exact hd.continuousAt.mul (hr x h)

/-- The numbers `get_total_irradiance` is given, as functions of something. -/
structure Inputs (X : Type) where
  (tilt az zen saz dni ghi dhi ext al : X → ℝ)

/-- They vary continuously, and fit together: the diffuse and the direct light on the horizontal are not more than the global light (all may be zero). -/
structure Steady {X : Type} [TopologicalSpace X] (u : Inputs X) : Prop where
  tilt : Continuous u.tilt
  az : Continuous u.az
  zen : Continuous u.zen
  saz : Continuous u.saz
  dni : Continuous u.dni
  ghi : Continuous u.ghi
  dhi : Continuous u.dhi
  ext : Continuous u.ext
  al : Continuous u.al
  extra : ∀ x, u.ext x ≠ 0
  diffuse : ∀ x, 0 ≤ u.dhi x ∧ u.dhi x ≤ u.ghi x
  direct : ∀ x, u.dni x * cosDeg (u.zen x) ≤ u.ghi x

variable {X : Type} [TopologicalSpace X] {u : Inputs X}

private theorem ghi_pos (S : Steady u) {x : X} (h : u.dhi x ≠ 0) : 0 < u.ghi x :=
  lt_of_lt_of_le (lt_of_le_of_ne (S.diffuse x).1 (Ne.symm h)) (S.diffuse x).2

private theorem cont_dot (S : Steady u) : Continuous fun x => dot (dirVec (u.tilt x) (u.az x)) (dirVec (u.zen x) (u.saz x)) := by
  have := S.tilt; have := S.az; have := S.zen; have := S.saz
  unfold dot dirVec sinDeg cosDeg
  fun_prop

private theorem ratio_pos (z : ℝ) : 0 < max (Real.cos (z * (π / 180))) 0.01745 := lt_of_lt_of_le (by norm_num) (le_max_right _ _)

private theorem cont_rb (S : Steady u) : Continuous fun x => max (dot (dirVec (u.tilt x) (u.az x)) (dirVec (u.zen x) (u.saz x))) 0 /
    max (Real.cos (u.zen x * (π / 180))) 0.01745 := by
  refine Continuous.div ((cont_dot S).max continuous_const) ?_ fun x => (ratio_pos _).ne'
  have := S.zen
  fun_prop

private theorem rb_fin (t a z s : ℝ) : projectionRatio (fin t) (fin a) (fin z) (fin s) =
    fin (max (dot (dirVec t a) (dirVec z s)) 0 / max (Real.cos (z * (π / 180))) 0.01745) := by
  unfold projectionRatio
  dsimp only
  rw [aoiProjection_dot, cosd_fin, zero_eq, maximum_fin, ofScientific_eq, maximum_fin, fin_div]
  exact (ratio_pos z).ne'

/-- Diffuse light from the sky. -/
private theorem sky_continuous (S : Steady u) (tbl : String → Option PerezTable) (f : ℕ → ℕ → Fl → Fl) (am : Option Fl) (mp : String)
    {model : String} (hm : pyLower model ∈ smooth) : ∃ g : X → ℝ, Continuous g ∧ ∀ x, ∃ s, getSkyDiffuse tbl f (fin (u.tilt x)) (fin (u.az x))
      (fin (u.zen x)) (fin (u.saz x)) (fin (u.dni x)) (fin (u.ghi x)) (fin (u.dhi x)) (some (fin (u.ext x))) am model mp false = .ok s ∧
      s.poa_sky_diffuse = fin (g x) := by
  have c1 := S.tilt; have c2 := S.az; have c3 := S.zen; have c4 := S.saz; have c5 := S.dni; have c6 := S.ghi; have c7 := S.dhi; have c8 := S.ext
  have cAI : Continuous fun x => u.dni x / u.ext x := c5.div c8 S.extra
  have cR := cont_rb S
  have cd := cont_dot S
  unfold getSkyDiffuse
  generalize pyLower model = m at hm
  dsimp only
  simp only [smooth, List.mem_cons, List.not_mem_nil, or_false] at hm
  rcases hm with rfl | rfl | rfl | rfl | rfl
  · refine ⟨fun x => u.dhi x * (1 + Real.cos (u.tilt x * (π / 180))) * 0.5, by fun_prop, fun x => ?_⟩
    rw [if_neg (by simp), if_neg (by simp), if_pos rfl]
    refine ⟨_, rfl, ?_⟩
    simp only [isotropic, cosd_fin, one_eq, fin_add, fin_mul, ofScientific_eq, Bool.false_eq_true, if_false]
  · -- klucher
    let F (x : X) : ℝ := 1 - (u.dhi x / u.ghi x) ^ 2
    let T1 (x : X) : ℝ := 0.5 * (1 + Real.cos (u.tilt x * (π / 180)))
    let B (x : X) : ℝ := Real.sin (0.5 * u.tilt x * (π / 180)) ^ 3
    let C (x : X) : ℝ := max (dot (dirVec (u.tilt x) (u.az x)) (dirVec (u.zen x) (u.saz x))) 0 ^ 2 * Real.sin (u.zen x * (π / 180)) ^ 3
    have q0 : ∀ x, 0 ≤ u.dhi x / u.ghi x ∧ u.dhi x / u.ghi x ≤ 1 := fun x =>
      ⟨div_nonneg (S.diffuse x).1 ((S.diffuse x).1.trans (S.diffuse x).2), div_le_one_of_le₀ (S.diffuse x).2 ((S.diffuse x).1.trans (S.diffuse x).2)⟩
    have hF : ∀ x, |F x| ≤ 1 := by
      intro x
      obtain ⟨a, b⟩ := q0 x
      have : (u.dhi x / u.ghi x) ^ 2 ≤ 1 := pow_le_one₀ a b
      have := sq_nonneg (u.dhi x / u.ghi x)
      rw [abs_le]; constructor <;> simp only [F] <;> linarith
    have cF : ∀ x, u.dhi x ≠ 0 → ContinuousAt F x := fun x hx =>
      continuousAt_const.sub ((c7.continuousAt.div c6.continuousAt (ghi_pos S hx).ne').pow 2)
    have k1 : Continuous fun x => u.dhi x * F x := tame_mul c7 hF cF
    have k2 : Continuous fun x => u.dhi x * F x ^ 2 :=
      tame_mul c7 (fun x => by rw [abs_pow]; exact pow_le_one₀ (abs_nonneg _) (hF x)) fun x hx => (cF x hx).pow 2
    have hB : Continuous B := by fun_prop
    have hC : Continuous C := by fun_prop
    have hT : Continuous T1 := by fun_prop
    refine ⟨fun x => T1 x * (u.dhi x + u.dhi x * F x * (B x + C x) + u.dhi x * F x ^ 2 * (B x * C x)), by fun_prop, fun x => ?_⟩
    rw [if_neg (by simp), if_neg (by simp), if_neg (by decide), if_pos rfl]
    refine ⟨_, rfl, ?_⟩
    have key : ∀ F' : ℝ, (u.dhi x = 0 ∨ F' = F x) → npwhere (isnan (1 - (fin (u.dhi x) / fin (u.ghi x)) ^ 2)) 0
        (1 - (fin (u.dhi x) / fin (u.ghi x)) ^ 2) = fin F' → klucher (fin (u.tilt x)) (fin (u.az x)) (fin (u.dhi x)) (fin (u.ghi x)) (fin (u.zen x))
        (fin (u.saz x)) = fin (T1 x * (u.dhi x + u.dhi x * F x * (B x + C x) + u.dhi x * F x ^ 2 * (B x * C x))) := by
      intro F' h0 h1
      dsimp only [klucher]
      rw [h1, aoiProjection_dot]
      simp only [cosd_fin, sind_fin, one_eq, zero_eq, fin_add, fin_mul, ofScientific_eq, maximum_fin, fin_pow, fin_inj]
      rcases h0 with h0 | rfl
      · rw [h0]; ring
      · simp only [T1, B, C]; ring
    by_cases h0 : u.ghi x = 0
    · have hd : u.dhi x = 0 := le_antisymm (by have := (S.diffuse x).2; linarith) (S.diffuse x).1
      refine key 0 (.inl hd) ?_
      rw [hd, h0]
      have : (fin 0 : Fl) / fin 0 = nan := by rw [fin_div_zero]; simp [infSign]
      rw [this]; simp [npwhere]
    · refine key (F x) (.inr rfl) ?_
      rw [fin_div h0, fin_pow, one_eq, fin_sub, npwhere, if_neg (by simp [isnan])]
  · refine ⟨fun x => max (u.dhi x * (1 - u.dni x / u.ext x) * (0.5 * (1 + Real.cos (u.tilt x * (π / 180))))) 0 +
      max (u.dhi x * (u.dni x / u.ext x * (max (dot (dirVec (u.tilt x) (u.az x)) (dirVec (u.zen x) (u.saz x))) 0 /
        max (Real.cos (u.zen x * (π / 180))) 0.01745))) 0, by fun_prop, fun x => ?_⟩
    rw [if_neg (by simp), if_neg (by simp), if_neg (by decide), if_neg (by decide), if_pos rfl]
    refine ⟨_, rfl, ?_⟩
    simp only [haydavies, haydaviesRb, rb_fin, Option.getD_some, fin_div (S.extra x), one_eq, zero_eq, fin_sub, fin_mul, cosd_fin, fin_add,
      ofScientific_eq, maximum_fin, Bool.false_eq_true, if_false]
  · -- reindl
    let r (x : X) : ℝ := Real.sqrt (max (u.dni x * Real.cos (u.zen x * (π / 180))) 0 / u.ghi x)
    have g0 : ∀ x, 0 ≤ u.ghi x := fun x => (S.diffuse x).1.trans (S.diffuse x).2
    have hr : ∀ x, |r x| ≤ 1 := by
      intro x
      rw [abs_of_nonneg (Real.sqrt_nonneg _), Real.sqrt_le_one]
      exact div_le_one_of_le₀ (max_le (S.direct x) (g0 x)) (g0 x)
    have cr : ∀ x, u.dhi x ≠ 0 → ContinuousAt r x := by
      intro x hx
      have : Continuous fun x => max (u.dni x * Real.cos (u.zen x * (π / 180))) 0 := by fun_prop
      exact (this.continuousAt.div c6.continuousAt (ghi_pos S hx).ne').sqrt
    have k : Continuous fun x => u.dhi x * r x := tame_mul c7 hr cr
    refine ⟨fun x => u.dhi x * ((1 - u.dni x / u.ext x) * ((1 + Real.cos (u.tilt x * (π / 180))) / 2) +
      u.dni x / u.ext x * (max (dot (dirVec (u.tilt x) (u.az x)) (dirVec (u.zen x) (u.saz x))) 0 / max (Real.cos (u.zen x * (π / 180))) 0.01745)) +
      u.dhi x * r x * ((1 - u.dni x / u.ext x) * ((1 + Real.cos (u.tilt x * (π / 180))) / 2) * Real.sin (u.tilt x / 2 * (π / 180)) ^ 3),
      by fun_prop, fun x => ?_⟩
    rw [if_neg (by simp), if_neg (by simp), if_neg (by decide), if_neg (by decide), if_neg (by decide), if_pos rfl]
    refine ⟨_, rfl, ?_⟩
    have hH : ∃ h : ℝ, npwhere (eqv (fin (u.ghi x)) 0) 0 (maximum (fin (u.dni x) * cosd (fin (u.zen x))) 0 / fin (u.ghi x)) = fin h ∧ 0 ≤ h ∧
        u.dhi x * Real.sqrt h = u.dhi x * r x := by
      by_cases h0 : u.ghi x = 0
      · have hd : u.dhi x = 0 := le_antisymm (by have := (S.diffuse x).2; linarith) (S.diffuse x).1
        exact ⟨0, by rw [h0]; simp [npwhere, eqv], le_rfl, by rw [hd]; ring⟩
      · refine ⟨_, ?_, ?_, rfl⟩
        · rw [cosd_fin, fin_mul, zero_eq, maximum_fin, fin_div h0, npwhere, if_neg (by simpa [eqv] using h0)]
        · exact div_nonneg (le_max_right _ _) (g0 x)
    obtain ⟨h, hh, h0, hq⟩ := hH
    dsimp only [reindl]
    rw [hh, rb_fin, sqrt_fin h0]
    simp only [Option.getD_some, fin_div (S.extra x), ofNat_eq, one_eq, fin_sub, cosd_fin, fin_add, fin_div (show (2 : ℝ) ≠ 0 by norm_num),
      sind_fin, fin_mul, Bool.false_eq_true, if_false, fin_pow, fin_inj]
    rw [← hq]
    ring
  · refine ⟨fun x => max (u.dhi x * (1 + Real.cos (u.tilt x * (π / 180))) / 2 + u.ghi x * (0.012 * u.zen x - 0.04) *
      (1 - Real.cos (u.tilt x * (π / 180))) / 2) 0, by fun_prop, fun x => ?_⟩
    rw [if_neg (by simp), if_neg (by simp), if_neg (by decide), if_neg (by decide), if_neg (by decide), if_neg (by decide), if_pos rfl]
    refine ⟨_, rfl, ?_⟩
    simp only [king, cosd_fin, one_eq, zero_eq, ofNat_eq, fin_add, fin_sub, fin_mul, fin_div (show (2 : ℝ) ≠ 0 by norm_num), ofScientific_eq, maximum_fin]

/-- **C218.** If orientation, position of the sun, irradiance, extraterrestrial radiation and albedo vary continuously with something (time, say), and the
diffuse and direct light on the horizontal are not more than the global light, then every irradiance on the plane varies continuously: also at
sunrise and sunset of the plane and of the sun, and where the light goes out (global irradiance reaches zero). -/
theorem total_continuous (S : Steady u) (tbl : String → Option PerezTable) (f : ℕ → ℕ → Fl → Fl) (am : Option Fl) (mp : String)
    {model : String} (hm : pyLower model ∈ smooth) : ∃ total direct diffuse sky ground : X → ℝ, Continuous total ∧ Continuous direct ∧
      Continuous diffuse ∧ Continuous sky ∧ Continuous ground ∧
      ∀ x, ∃ p, getTotalIrradiance tbl f (fin (u.tilt x)) (fin (u.az x)) (fin (u.zen x)) (fin (u.saz x)) (fin (u.dni x)) (fin (u.ghi x)) (fin (u.dhi x))
          (some (fin (u.ext x))) am (fin (u.al x)) none model mp false = .ok p ∧
        p.poa_global = fin (total x) ∧ p.poa_direct = fin (direct x) ∧ p.poa_diffuse = fin (diffuse x) ∧ p.poa_sky_diffuse = fin (sky x) ∧
        p.poa_ground_diffuse = fin (ground x) := by
  obtain ⟨sky, cs, hs⟩ := sky_continuous S tbl f am mp hm
  let direct (x : X) : ℝ := max (u.dni x * dot (dirVec (u.tilt x) (u.az x)) (dirVec (u.zen x) (u.saz x))) 0
  let ground (x : X) : ℝ := u.ghi x * u.al x * (1 - Real.cos (u.tilt x * (π / 180))) * 0.5
  have cd : Continuous direct := (S.dni.mul (cont_dot S)).max continuous_const
  have cg : Continuous ground := by
    have := S.ghi; have := S.al; have := S.tilt
    fun_prop
  refine ⟨fun x => direct x + (sky x + ground x), direct, fun x => sky x + ground x, sky, ground, cd.add (cs.add cg), cd, cs.add cg, cs, cg, fun x => ?_⟩
  obtain ⟨s, h1, h2⟩ := hs x
  have hd : maximum (fin (u.dni x) * Fl.cos (radians (aoi (fin (u.tilt x)) (fin (u.az x)) (fin (u.zen x)) (fin (u.saz x))))) 0 = fin (direct x) := by
    obtain ⟨y, hy, -, -, hc⟩ := aoi_spec (u.tilt x) (u.az x) (u.zen x) (u.saz x)
    rw [hy, show Fl.cos (radians (fin y)) = fin (cosDeg y) from rfl, hc, fin_mul, zero_eq, maximum_fin]
  have hg : (fin (u.ghi x) * fin (u.al x) * (1 - Fl.cos (radians (fin (u.tilt x)))) * 0.5 : Fl) = fin (ground x) := by
    rw [show Fl.cos (radians (fin (u.tilt x))) = fin (Real.cos (u.tilt x * (π / 180))) from rfl, one_eq, fin_sub, fin_mul, fin_mul, ofScientific_eq, fin_mul]
  refine ⟨poaComponents (aoi (fin (u.tilt x)) (fin (u.az x)) (fin (u.zen x)) (fin (u.saz x))) (fin (u.dni x)) s (fin (ground x)), ?_, ?_, hd, ?_, h2, rfl⟩
  · unfold getTotalIrradiance
    rw [h1]
    show Except.bind _ _ = _
    dsimp only [Except.bind]
    unfold groundDiffuse
    dsimp only
    show Except.bind _ _ = _
    dsimp only [Except.bind]
    rw [hg]
    rfl
  · dsimp only [poaComponents]
    rw [hd, h2, fin_add, fin_add]
  · dsimp only [poaComponents]
    rw [h2, fin_add]

/-- An hour around sunset, time in hours. -/
def sunset : Inputs ℝ := ⟨fun _ => 30, fun _ => 180, fun t => 90 + 10 * t, fun t => 270 + 8 * t, fun t => max (-300 * t) 0, fun t => max (-300 * t) 0,
  fun t => max (-100 * t) 0, fun _ => 1366, fun _ => 0.25⟩

private theorem sunset_steady : Steady sunset := by
  refine ⟨?_, ?_, ?_, ?_, ?_, ?_, ?_, ?_, ?_, fun _ => by norm_num [sunset], fun t => ⟨le_max_right _ _, ?_⟩, fun t => ?_⟩ <;> try (unfold sunset; fun_prop)
  · rcases le_total t 0 with h | h
    · exact max_le_max (by nlinarith) le_rfl
    · show max (-100 * t) 0 ≤ max (-300 * t) 0
      rw [max_eq_right (by linarith : -100 * t ≤ 0)]
      exact le_max_right _ _
  · exact mul_le_of_le_one_right (le_max_right _ _) (Real.cos_le_one _)

example := total_continuous sunset_steady (fun _ => none) (fun _ _ => id) none "x" (model := "Klucher") (by decide)

end Pvlib.Props.TransContinuity
end
