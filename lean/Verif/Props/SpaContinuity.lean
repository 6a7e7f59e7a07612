import Verif.Props.SpaPosition
import Mathlib.Topology.Order.OrderClosed
import Mathlib.Topology.Algebra.Order.Field
import Mathlib.Analysis.SpecialFunctions.Complex.Arg
import Mathlib.Analysis.SpecialFunctions.Trigonometric.Arctan
import Mathlib.Analysis.SpecialFunctions.Trigonometric.Inverse
import Mathlib.Analysis.SpecialFunctions.Complex.Log

/-! # Property C221: the sun of the solar position algorithm does not jump -/

noncomputable section
open scoped Classical
open Real
namespace Pvlib.Props.SpaContinuity
open Fl Pvlib.Spa Pvlib.Tools Pvlib.Props.SpaBounds Pvlib.Props.SpaGeometry Pvlib.Props.SpaPosition

variable {X : Type} [TopologicalSpace X]

/-! ### Specification -/

/-- Place and time, as functions of something: latitude, longitude, height, UTC seconds since 1970 and delta T. -/
structure Path (X : Type) where
  (lat lon height time deltaT : X → ℝ)

/-- They vary continuously; the latitude is short of the poles, the height at most 1000 km, the time within 4000 years of 2000. -/
structure Path.Ok (p : Path X) : Prop where
  lat : Continuous p.lat
  lon : Continuous p.lon
  height : Continuous p.height
  time : Continuous p.time
  deltaT : Continuous p.deltaT
  lat_lt : ∀ x, |p.lat x| < 90
  height_le : ∀ x, |p.height x| ≤ 1000000
  era : ∀ x, |daysJ2000 (p.time x + p.deltaT x)| ≤ 4 * 365250

/-- The result at a point. -/
def Path.out (p : Path X) (pressure temp ar : X → Fl) (x : X) : SpaOut :=
  spaFull ⟨fin (p.lat x), fin (p.lon x), fin (p.height x), pressure x, temp x, ar x⟩ (fin (p.time x)) (fin (p.deltaT x))

/-- Around `x` the values are numbers, continuous at `x`. -/
def NoJump (f : X → Fl) (x : X) : Prop := ∃ g : X → ℝ, ContinuousAt g x ∧ ∀ᶠ y in nhds x, f y = fin (g y)

/-! ### Proofs -/

/-- A number at every point, continuously. -/
private def Cts (f : X → Fl) : Prop := ∃ g : X → ℝ, Continuous g ∧ ∀ x, f x = fin (g x)

private theorem cts_const (c : ℝ) : Cts fun _ : X => fin c := ⟨fun _ => c, continuous_const, fun _ => rfl⟩
private theorem cts_add {f g : X → Fl} (hf : Cts f) (hg : Cts g) : Cts fun x => f x + g x := by
  obtain ⟨a, ca, ha⟩ := hf; obtain ⟨b, cb, hb⟩ := hg
  exact ⟨fun x => a x + b x, ca.add cb, fun x => by dsimp only; rw [ha, hb, fin_add]⟩
private theorem cts_sub {f g : X → Fl} (hf : Cts f) (hg : Cts g) : Cts fun x => f x - g x := by
  obtain ⟨a, ca, ha⟩ := hf; obtain ⟨b, cb, hb⟩ := hg
  exact ⟨fun x => a x - b x, ca.sub cb, fun x => by dsimp only; rw [ha, hb, fin_sub]⟩
private theorem cts_mul {f g : X → Fl} (hf : Cts f) (hg : Cts g) : Cts fun x => f x * g x := by
  obtain ⟨a, ca, ha⟩ := hf; obtain ⟨b, cb, hb⟩ := hg
  exact ⟨fun x => a x * b x, ca.mul cb, fun x => by dsimp only; rw [ha, hb, fin_mul]⟩
private theorem cts_pow {f : X → Fl} (hf : Cts f) (n : ℕ) : Cts fun x => f x ^ n := by
  obtain ⟨a, ca, ha⟩ := hf
  exact ⟨fun x => a x ^ n, ca.pow n, fun x => by dsimp only; rw [ha, fin_pow]⟩
private theorem cts_div {f : X → Fl} (hf : Cts f) {c : ℝ} (hc : c ≠ 0) : Cts fun x => f x / fin c := by
  obtain ⟨a, ca, ha⟩ := hf
  exact ⟨fun x => a x / c, ca.div_const c, fun x => by dsimp only; rw [ha, fin_div hc]⟩
private theorem cts_sin {f : X → Fl} (hf : Cts f) : Cts fun x => Fl.sin (Fl.radians (f x)) := by
  obtain ⟨a, ca, ha⟩ := hf
  exact ⟨fun x => Real.sin (rad (a x)), by fun_prop, fun x => by dsimp only; rw [ha]; rfl⟩
private theorem cts_cos {f : X → Fl} (hf : Cts f) : Cts fun x => Fl.cos (Fl.radians (f x)) := by
  obtain ⟨a, ca, ha⟩ := hf
  exact ⟨fun x => Real.cos (rad (a x)), by fun_prop, fun x => by dsimp only; rw [ha]; rfl⟩

private theorem ser_continuous (arr : List (ℚ × ℚ × ℚ)) : Continuous (ser arr) := by
  unfold ser
  induction arr with
  | nil => simpa using continuous_const
  | cons r rs ih =>
    simp only [List.map_cons, List.sum_cons]
    exact Continuous.add (by fun_prop) ih

private theorem nutation_cts {j x0 x1 x2 x3 x4 : X → Fl} (hj : Cts j) (h0 : Cts x0) (h1 : Cts x1) (h2 : Cts x2) (h3 : Cts x3) (h4 : Cts x4)
    (rows : List ((ℚ × ℚ × ℚ × ℚ) × (ℤ × ℤ × ℤ × ℤ × ℤ))) : ∀ s : X → Fl × Fl, Cts (fun x => (s x).1) → Cts (fun x => (s x).2) →
    Cts (fun x => (rows.foldl (nutationStep (j x) (x0 x) (x1 x) (x2 x) (x3 x) (x4 x)) (s x)).1) ∧
    Cts (fun x => (rows.foldl (nutationStep (j x) (x0 x) (x1 x) (x2 x) (x3 x) (x4 x)) (s x)).2) := by
  induction rows with
  | nil => exact fun s a b => ⟨a, b⟩
  | cons r rs ih =>
    intro s a b
    simp only [List.foldl_cons]
    have arg := cts_add (cts_add (cts_add (cts_add (cts_mul (cts_const (X := X) (r.2.1 : ℝ)) h0) (cts_mul (cts_const (X := X) (r.2.2.1 : ℝ)) h1))
      (cts_mul (cts_const (X := X) (r.2.2.2.1 : ℝ)) h2)) (cts_mul (cts_const (X := X) (r.2.2.2.2.1 : ℝ)) h3)) (cts_mul (cts_const (X := X) (r.2.2.2.2.2 : ℝ)) h4)
    refine ih (fun x => nutationStep (j x) (x0 x) (x1 x) (x2 x) (x3 x) (x4 x) (s x) r) ?_ ?_
    · exact cts_add a (cts_mul (cts_add (cts_const _) (cts_mul (cts_const _) hj)) (cts_sin arg))
    · exact cts_add b (cts_mul (cts_add (cts_const _) (cts_mul (cts_const _) hj)) (cts_cos arg))

private theorem arguments_cts {j : X → Fl} (h : Cts j) : Cts (fun x => meanElongation (j x)) ∧ Cts (fun x => meanAnomalySun (j x)) ∧ Cts (fun x => meanAnomalyMoon (j x)) ∧
    Cts (fun x => moonArgumentLatitude (j x)) ∧ Cts (fun x => moonAscendingLongitude (j x)) := by
  unfold meanElongation meanAnomalySun meanAnomalyMoon moonArgumentLatitude moonAscendingLongitude
  simp only [ofNat_eq, ofScientific_eq]
  refine ⟨?_, ?_, ?_, ?_, ?_⟩
  · exact cts_add (cts_sub (cts_add (cts_const _) (cts_mul (cts_const _) h)) (cts_mul (cts_const _) (cts_pow h 2))) (cts_div (cts_pow h 3) (by norm_num))
  · exact cts_sub (cts_sub (cts_add (cts_const _) (cts_mul (cts_const _) h)) (cts_mul (cts_const _) (cts_pow h 2))) (cts_div (cts_pow h 3) (by norm_num))
  · exact cts_add (cts_add (cts_add (cts_const _) (cts_mul (cts_const _) h)) (cts_mul (cts_const _) (cts_pow h 2))) (cts_div (cts_pow h 3) (by norm_num))
  · exact cts_add (cts_sub (cts_add (cts_const _) (cts_mul (cts_const _) h)) (cts_mul (cts_const _) (cts_pow h 2))) (cts_div (cts_pow h 3) (by norm_num))
  · exact cts_add (cts_add (cts_sub (cts_const _) (cts_mul (cts_const _) h)) (cts_mul (cts_const _) (cts_pow h 2))) (cts_div (cts_pow h 3) (by norm_num))

private theorem obliquity_cts {j : X → Fl} (h : Cts j) : Cts (fun x => meanEclipticObliquity (j x)) := by
  unfold meanEclipticObliquity
  dsimp only
  simp only [ofNat_eq, ofScientific_eq]
  have hu : Cts fun x => fin (OfScientific.ofScientific 10 true 1) * j x / fin 10 := cts_div (cts_mul (cts_const _) h) (by norm_num)
  have t (c : ℝ) (n : ℕ) : Cts fun x => fin c * (fin (OfScientific.ofScientific 10 true 1) * j x / fin 10) ^ n := cts_mul (cts_const _) (cts_pow hu n)
  exact cts_add (cts_add (cts_add (cts_add (cts_sub (cts_sub (cts_sub (cts_add (cts_sub (cts_sub (cts_const _) (cts_mul (cts_const _) hu)) (t _ 2)) (t _ 3)) (t _ 4)) (t _ 5)) (t _ 6))
    (t _ 7)) (t _ 8)) (t _ 9)) (t _ 10)

private theorem times_cts {t dt : X → ℝ} (ht : Continuous t) (hdt : Continuous dt) :
    Cts fun x => julianEphemerisCentury (julianEphemerisDay (julianDay (fin (t x))) (fin (dt x))) := by
  unfold julianEphemerisCentury julianEphemerisDay julianDay
  simp only [ofNat_eq, ofScientific_eq]
  exact cts_div (cts_mul (cts_sub (cts_add (cts_add (cts_div (cts_mul ⟨t, ht, fun _ => rfl⟩ (cts_const _)) (by norm_num)) (cts_const _))
    (cts_div (cts_mul ⟨dt, hdt, fun _ => rfl⟩ (cts_const _)) (by norm_num))) (cts_const _)) (cts_const _)) (by norm_num)

/-- Nutation in longitude and true obliquity. -/
private theorem nutation_obliquity {t dt : X → ℝ} (ht : Continuous t) (hdt : Continuous dt) :
    Cts (fun x => (spaGeo (fin (t x)) (fin (dt x))).dpsi) ∧ Cts (fun x => (spaGeo (fin (t x)) (fin (dt x))).eps) := by
  have hj := times_cts ht hdt
  have hm : Cts fun x => julianEphemerisMillennium (julianEphemerisCentury (julianEphemerisDay (julianDay (fin (t x))) (fin (dt x)))) := by
    unfold julianEphemerisMillennium
    simp only [ofNat_eq, ofScientific_eq]
    exact cts_div (cts_mul hj (cts_const _)) (by norm_num)
  obtain ⟨h0, h1, h2, h3, h4⟩ := arguments_cts hj
  have hn := nutation_cts hj h0 h1 h2 h3 h4 (nutationAbcd.zip nutationY) (fun _ => (0, 0)) (by simpa only [zero_eq] using cts_const 0) (by simpa only [zero_eq] using cts_const 0)
  constructor
  · unfold spaGeo longitudeObliquityNutation
    dsimp only
    simp only [ofNat_eq, ofScientific_eq]
    exact cts_div (cts_mul hn.1 (cts_const _)) (by norm_num)
  · unfold spaGeo longitudeObliquityNutation trueEclipticObliquity
    dsimp only
    simp only [ofNat_eq, ofScientific_eq]
    exact cts_add (cts_div (cts_mul (obliquity_cts hm) (cts_const _)) (by norm_num)) (cts_div (cts_mul hn.2 (cts_const _)) (by norm_num))

/-- The heliocentric longitude, up to whole turns. -/
private def lon0 (j : ℝ) : ℝ :=
  (ser tabL0 j + ser tabL1 j * j + ser tabL2 j * j ^ 2 + ser tabL3 j * j ^ 3 + ser tabL4 j * j ^ 4 + ser tabL5 j * j ^ 5) / 100000000 * (180 / π)

private theorem lon0_spec (j : ℝ) : heliocentricLongitude (fin j) = fin (lon0 j - 360 * ⌊lon0 j / 360⌋) := by
  unfold heliocentricLongitude
  simp only [SpaBounds.sum_fin, ofNat_eq, fin_mul, fin_pow, fin_add]
  rw [fin_div (by norm_num), degrees_fin, mod_fin (by norm_num)]
  rfl

private theorem lon0_continuous : Continuous lon0 := by
  have := ser_continuous tabL0; have := ser_continuous tabL1; have := ser_continuous tabL2
  have := ser_continuous tabL3; have := ser_continuous tabL4; have := ser_continuous tabL5
  unfold lon0
  fun_prop

/-- The heliocentric latitude. -/
private def lat0 (j : ℝ) : ℝ := (ser tabB0 j + ser tabB1 j * j) / 100000000 * (180 / π)

private theorem lat0_spec (j : ℝ) : heliocentricLatitude (fin j) = fin (lat0 j) := by
  unfold heliocentricLatitude
  simp only [SpaBounds.sum_fin, ofNat_eq, fin_mul, fin_add]
  rw [fin_div (by norm_num), degrees_fin]
  rfl

private theorem lat0_continuous : Continuous lat0 := by
  have := ser_continuous tabB0; have := ser_continuous tabB1
  unfold lat0
  fun_prop

private theorem dist_continuous : Continuous SpaBounds.dist := by
  have := ser_continuous tabR0; have := ser_continuous tabR1; have := ser_continuous tabR2
  have := ser_continuous tabR3; have := ser_continuous tabR4
  unfold SpaBounds.dist
  fun_prop

private theorem turn_cos (a : ℝ) (k : ℤ) : Real.cos (rad (a + 360 * k)) = Real.cos (rad a) ∧ Real.sin (rad (a + 360 * k)) = Real.sin (rad a) := by
  have : rad (a + 360 * k) = rad a + k * (2 * π) := by unfold rad; ring
  rw [this]
  exact ⟨Real.cos_add_int_mul_two_pi _ _, Real.sin_add_int_mul_two_pi _ _⟩

private theorem observer_value (φ E : ℝ) (h : |φ| < 90) : ObserverAt (rad φ) E
    (Real.cos (Real.arctan (0.99664719 * Real.tan (rad φ))) + E / 6378140 * Real.cos (rad φ))
    (0.99664719 * Real.sin (Real.arctan (0.99664719 * Real.tan (rad φ))) + E / 6378140 * Real.sin (rad φ)) := by
  have hp := Real.pi_pos
  have hc : 0 < Real.cos (rad φ) := by
    have := abs_lt.1 h
    apply Real.cos_pos_of_mem_Ioo
    constructor <;> rw [rad] <;> nlinarith
  have hcu := Real.cos_arctan_pos (0.99664719 * Real.tan (rad φ))
  set u := Real.arctan (0.99664719 * Real.tan (rad φ)) with hu
  refine ⟨Real.cos u, 0.99664719 * Real.sin u, Real.cos u / Real.cos (rad φ), ?_, by positivity, ?_, ?_, rfl, rfl⟩
  · rw [mul_div_cancel_left₀ _ (by norm_num)]
    linarith [Real.sin_sq_add_cos_sq u]
  · field_simp
  · have ht : Real.tan u = 0.99664719 * Real.tan (rad φ) := Real.tan_arctan _
    rw [Real.tan_eq_sin_div_cos, div_eq_iff hcu.ne', Real.tan_eq_sin_div_cos] at ht
    rw [ht]
    field_simp

private theorem core {p : Path X} (h : p.Ok) (pressure temp ar : X → Fl) :
    ∃ e A : X → ℝ, Continuous e ∧ Continuous (fun x => Real.cos (rad (e x)) * Real.cos (rad (A x))) ∧ Continuous (fun x => Real.cos (rad (e x)) * Real.sin (rad (A x))) ∧
      ∀ x, (p.out pressure temp ar x).elevation = fin (e x) ∧ (p.out pressure temp ar x).zenith = fin (90 - e x) ∧ (p.out pressure temp ar x).azimuth = fin (A x) ∧
        -90 ≤ e x ∧ e x ≤ 90 ∧ 0 ≤ A x ∧ A x < 360 := by
  obtain ⟨⟨ψ, cψ, hψ⟩, ⟨ε, cε, hε⟩⟩ := nutation_obliquity h.time h.deltaT
  have cφ := h.lat; have cl := h.lon; have cE := h.height; have ct := h.time; have cdt := h.deltaT
  have cd : Continuous fun x => daysJ2000 (p.time x + p.deltaT x) / 365250 := by unfold daysJ2000; fun_prop
  have cd0 : Continuous fun x => daysJ2000 (p.time x) := by unfold daysJ2000; fun_prop
  let L (x : X) : ℝ := lon0 (daysJ2000 (p.time x + p.deltaT x) / 365250)
  let B (x : X) : ℝ := lat0 (daysJ2000 (p.time x + p.deltaT x) / 365250)
  let R (x : X) : ℝ := SpaBounds.dist (daysJ2000 (p.time x + p.deltaT x) / 365250)
  have cL : Continuous L := lon0_continuous.comp cd
  have cB : Continuous B := lat0_continuous.comp cd
  have cR : Continuous R := dist_continuous.comp cd
  have hR : ∀ x, 0.978 < R x := fun x => by
    obtain ⟨R', v, α, δ, dψ, ε', L', B', hg, hR, hL, hB, r1, -⟩ := geo_spec (p.time x) (p.deltaT x) (h.era x)
    rw [radius_fin, fin_inj] at hR
    rw [show R x = R' from hR]; exact r1
  have hR0 : ∀ x, 3600 * R x ≠ 0 := fun x => by have := hR x; norm_num at *; intro h; rw [h] at this; norm_num at this
  let lam (x : X) : ℝ := rad (L x + 180 + ψ x - 20.4898 / (3600 * R x))
  have clam : Continuous lam := by
    have : Continuous fun x => 20.4898 / (3600 * R x) := continuous_const.div (by fun_prop) hR0
    show Continuous fun x => rad (L x + 180 + ψ x - 20.4898 / (3600 * R x))
    fun_prop
  let S (x : X) : ℝ := 280.46061837 + 360.98564736629 * daysJ2000 (p.time x) + 0.000387933 * (daysJ2000 (p.time x) / 36525) ^ 2 -
        (daysJ2000 (p.time x) / 36525) ^ 3 / 38710000 + ψ x * Real.cos (rad (ε x)) + p.lon x
  have cS : Continuous S := by
    show Continuous fun x => 280.46061837 + 360.98564736629 * daysJ2000 (p.time x) + 0.000387933 * (daysJ2000 (p.time x) / 36525) ^ 2 -
        (daysJ2000 (p.time x) / 36525) ^ 3 / 38710000 + ψ x * Real.cos (rad (ε x)) + p.lon x
    fun_prop
  let q (i : Fin 3) (x : X) : ℝ := eclToEq (rad (ε x)) (lam x) (rad (-B x)) i
  have cq0 : Continuous (q 0) := by
    show Continuous fun x => Real.cos (rad (-B x)) * Real.cos (lam x)
    fun_prop
  have cq1 : Continuous (q 1) := by
    show Continuous fun x => Real.cos (rad (-B x)) * Real.sin (lam x) * Real.cos (rad (ε x)) - Real.sin (rad (-B x)) * Real.sin (rad (ε x))
    fun_prop
  have cq2 : Continuous (q 2) := by
    show Continuous fun x => Real.cos (rad (-B x)) * Real.sin (lam x) * Real.sin (rad (ε x)) + Real.sin (rad (-B x)) * Real.cos (rad (ε x))
    fun_prop
  let u (x : X) : ℝ := Real.arctan (0.99664719 * Real.tan (rad (p.lat x)))
  have cu : Continuous u := by
    have : Continuous fun x => Real.tan (rad (p.lat x)) := by
      rw [continuous_iff_continuousAt]
      intro x
      have hc : Real.cos (rad (p.lat x)) ≠ 0 := by
        have hp := Real.pi_pos
        have := abs_lt.1 (h.lat_lt x)
        refine (Real.cos_pos_of_mem_Ioo ?_).ne'
        constructor <;> rw [rad] <;> nlinarith
      have c2 : ContinuousAt (fun x => rad (p.lat x)) x := (by fun_prop : Continuous fun x => rad (p.lat x)).continuousAt
      exact ContinuousAt.comp (f := fun x => rad (p.lat x)) (g := Real.tan) (Real.continuousAt_tan.2 hc) c2
    exact Real.continuous_arctan.comp (continuous_const.mul this)
  let ox (x : X) : ℝ := Real.cos (u x) + p.height x / 6378140 * Real.cos (rad (p.lat x))
  let oy (x : X) : ℝ := 0.99664719 * Real.sin (u x) + p.height x / 6378140 * Real.sin (rad (p.lat x))
  let s (x : X) : ℝ := Real.sin (rad (8.794 / (3600 * R x)))
  have cs : Continuous s := by
    have : Continuous fun x => 8.794 / (3600 * R x) := continuous_const.div (by fun_prop) hR0
    show Continuous fun x => Real.sin (rad (8.794 / (3600 * R x)))
    fun_prop
  let t0 (x : X) : ℝ := Real.cos (rad (S x)) * q 0 x + Real.sin (rad (S x)) * q 1 x - s x * ox x
  let t1 (x : X) : ℝ := Real.sin (rad (S x)) * q 0 x - Real.cos (rad (S x)) * q 1 x
  let t2 (x : X) : ℝ := q 2 x - s x * oy x
  have cox : Continuous ox := by
    show Continuous fun x => Real.cos (u x) + p.height x / 6378140 * Real.cos (rad (p.lat x))
    fun_prop
  have coy : Continuous oy := by
    show Continuous fun x => 0.99664719 * Real.sin (u x) + p.height x / 6378140 * Real.sin (rad (p.lat x))
    fun_prop
  have ct0 : Continuous t0 := by
    show Continuous fun x => Real.cos (rad (S x)) * q 0 x + Real.sin (rad (S x)) * q 1 x - s x * ox x
    fun_prop
  have ct1 : Continuous t1 := by
    show Continuous fun x => Real.sin (rad (S x)) * q 0 x - Real.cos (rad (S x)) * q 1 x
    fun_prop
  have ct2 : Continuous t2 := by
    show Continuous fun x => q 2 x - s x * oy x
    fun_prop
  let up (x : X) : ℝ := t0 x * Real.cos (rad (p.lat x)) + t2 x * Real.sin (rad (p.lat x))
  let north (x : X) : ℝ := t2 x * Real.cos (rad (p.lat x)) - t0 x * Real.sin (rad (p.lat x))
  have cup : Continuous up := by
    show Continuous fun x => t0 x * Real.cos (rad (p.lat x)) + t2 x * Real.sin (rad (p.lat x))
    fun_prop
  have cnorth : Continuous north := by
    show Continuous fun x => t2 x * Real.cos (rad (p.lat x)) - t0 x * Real.sin (rad (p.lat x))
    fun_prop
  have key : ∀ x, ∃ e A ρ : ℝ, (p.out pressure temp ar x).elevation = fin e ∧ (p.out pressure temp ar x).zenith = fin (90 - e) ∧
      (p.out pressure temp ar x).azimuth = fin A ∧ -90 ≤ e ∧ e ≤ 90 ∧ 0 ≤ A ∧ A < 360 ∧ 0 < ρ ∧ ρ * Real.sin (rad e) = up x ∧
      ρ * (Real.cos (rad e) * Real.cos (rad A)) = north x ∧ ρ * (Real.cos (rad e) * Real.sin (rad A)) = -t1 x := by
    intro x
    obtain ⟨R', v, α, δ, dψ, ε', L', B', hg, r0, hL, hB, r1, -, -, -, -, -, -, -, hδ, c0, c1, c2, k, hv⟩ := geo_spec (p.time x) (p.deltaT x) (h.era x)
    have eR : R' = R x := by rw [radius_fin, fin_inj] at r0; exact r0.symm
    have eL : L' = L x - 360 * ⌊L x / 360⌋ := by rw [lon0_spec, fin_inj] at hL; exact hL.symm
    have eB : B' = B x := by rw [lat0_spec, fin_inj] at hB; exact hB.symm
    have eψ : dψ = ψ x := by have := hψ x; dsimp only at this; rw [hg] at this; exact Fl.fin.inj this
    have eε : ε' = ε x := by have := hε x; dsimp only at this; rw [hg] at this; exact Fl.fin.inj this
    subst eR eB eψ eε
    obtain ⟨e, A, x', y', d1, d2, d3, d4, d5, d6, d7, ob, ρ, hρ, u1, u2, u3⟩ := spa_direction (p.lat x) (p.lon x) (p.height x) (pressure x) (temp x) (ar x) (R x) v α δ (fin (ψ x)) (fin (ε x))
      (fin (daysJ2000 (p.time x + p.deltaT x) / 365250)) (h.lat_lt x) (h.height_le x) (by norm_num at *; linarith) (by norm_num at *; linarith)
    obtain ⟨ex, ey⟩ := observer_unique ob (observer_value (p.lat x) (p.height x) (h.lat_lt x))
    have elam : rad (L' + 180 + ψ x - 20.4898 / (3600 * R x)) = lam x + (-⌊L x / 360⌋ : ℤ) * (2 * π) := by
      show _ = rad (L x + 180 + ψ x - 20.4898 / (3600 * R x)) + _
      rw [eL, rad, rad]; push_cast; ring
    have eq3 : eclToEq (rad (ε x)) (rad (L' + 180 + ψ x - 20.4898 / (3600 * R x))) (rad (-B x)) = eclToEq (rad (ε x)) (lam x) (rad (-B x)) := by
      unfold eclToEq
      rw [elam, Real.cos_add_int_mul_two_pi, Real.sin_add_int_mul_two_pi]
    rw [eq3] at c0 c1 c2
    have eV : v + p.lon x = S x + 360 * k := by
      show _ = (280.46061837 + 360.98564736629 * daysJ2000 (p.time x) + 0.000387933 * (daysJ2000 (p.time x) / 36525) ^ 2 -
        (daysJ2000 (p.time x) / 36525) ^ 3 / 38710000 + ψ x * Real.cos (rad (ε x)) + p.lon x) + _
      rw [hv]; ring
    have eH : rad (v + p.lon x - α) = rad (v + p.lon x) - rad α := by unfold rad; ring
    have hV := turn_cos (S x) k
    rw [← eV] at hV
    have eT : topoVec (rad δ) (rad (v + p.lon x - α)) x' y' (Real.sin (rad (8.794 / (3600 * R x)))) = ![t0 x, t1 x, t2 x] := by
      have a0 : Real.cos (rad δ) * Real.cos (rad (v + p.lon x - α)) = Real.cos (rad (S x)) * q 0 x + Real.sin (rad (S x)) * q 1 x := by
        rw [eH, Real.cos_sub, hV.1, hV.2]
        show _ = Real.cos (rad (S x)) * eclToEq (rad (ε x)) (lam x) (rad (-B x)) 0 + Real.sin (rad (S x)) * eclToEq (rad (ε x)) (lam x) (rad (-B x)) 1
        rw [← c0, ← c1]; ring
      have a1 : Real.cos (rad δ) * Real.sin (rad (v + p.lon x - α)) = t1 x := by
        rw [eH, Real.sin_sub, hV.1, hV.2]
        show _ = Real.sin (rad (S x)) * eclToEq (rad (ε x)) (lam x) (rad (-B x)) 0 - Real.cos (rad (S x)) * eclToEq (rad (ε x)) (lam x) (rad (-B x)) 1
        rw [← c0, ← c1]; ring
      unfold topoVec
      rw [a0, a1, c2, ex, ey]
    rw [eT] at u1 u2 u3
    refine ⟨e, A, ρ, ?_, ?_, ?_, d4, d5, d6, d7, hρ, u1, u2, u3⟩
    · unfold Path.out spaFull; rw [hg]; exact d1
    · unfold Path.out spaFull; rw [hg]; exact d2
    · unfold Path.out spaFull; rw [hg]; exact d3
  choose e A ρ k1 k2 k3 k4 k5 k6 k7 k8 k9 k10 k11 using key
  have hρ : ∀ x, ρ x = Real.sqrt (up x ^ 2 + north x ^ 2 + t1 x ^ 2) := by
    intro x
    rw [eq_comm, Real.sqrt_eq_iff_mul_self_eq_of_pos (k8 x), ← k9 x, ← k10 x, ← neg_sq (t1 x), ← k11 x]
    have a := Real.sin_sq_add_cos_sq (rad (e x))
    have b := Real.sin_sq_add_cos_sq (rad (A x))
    linear_combination (-(ρ x) ^ 2) * a - (ρ x) ^ 2 * Real.cos (rad (e x)) ^ 2 * b
  have cρ : Continuous ρ := by
    have : ρ = fun x => Real.sqrt (up x ^ 2 + north x ^ 2 + t1 x ^ 2) := funext hρ
    rw [this]
    fun_prop
  have hne : ∀ x, ρ x ≠ 0 := fun x => (k8 x).ne'
  have ee : e = fun x => Real.arcsin (up x / ρ x) * (180 / π) := by
    funext x
    have hp := Real.pi_pos
    rw [← k9 x, mul_div_cancel_left₀ _ (hne x), Real.arcsin_sin (by unfold rad; nlinarith [k4 x]) (by unfold rad; nlinarith [k5 x])]
    unfold rad
    field_simp
  refine ⟨e, A, ?_, ?_, ?_, fun x => ⟨k1 x, k2 x, k3 x, k4 x, k5 x, k6 x, k7 x⟩⟩
  · rw [ee]
    exact (Real.continuous_arcsin.comp (cup.div cρ hne)).mul continuous_const
  · have : (fun x => Real.cos (rad (e x)) * Real.cos (rad (A x))) = fun x => north x / ρ x := by
      funext x
      rw [← k10 x, mul_div_cancel_left₀ _ (hne x)]
    rw [this]
    exact cnorth.div cρ hne
  · have : (fun x => Real.cos (rad (e x)) * Real.sin (rad (A x))) = fun x => -t1 x / ρ x := by
      funext x
      rw [← k11 x, mul_div_cancel_left₀ _ (hne x)]
    rw [this]
    exact ct1.neg.div cρ hne

private theorem complex_form (r a b : ℝ) : (⟨-(r * a), -(r * b)⟩ : ℂ) = (r : ℂ) * (((-a : ℝ) : ℂ) + ((-b : ℝ) : ℂ) * Complex.I) := by
  apply Complex.ext <;> simp

private theorem complex_form' (a b : ℝ) : (⟨a, b⟩ : ℂ) = (a : ℂ) + (b : ℂ) * Complex.I := by
  apply Complex.ext <;> simp

private theorem azimuth_of {e A : X → ℝ} (ce : Continuous e) (c1 : Continuous (fun x => Real.cos (rad (e x)) * Real.cos (rad (A x))))
    (c2 : Continuous (fun x => Real.cos (rad (e x)) * Real.sin (rad (A x)))) (hA : ∀ x, 0 ≤ A x ∧ A x < 360) (he : ∀ x, -90 ≤ e x ∧ e x ≤ 90) {x : X}
    (hx : |e x| < 90) (h0 : A x ≠ 0) : ContinuousAt A x := by
  have hp := Real.pi_pos
  have hc : 0 < Real.cos (rad (e x)) := by
    have := abs_lt.1 hx
    refine Real.cos_pos_of_mem_Ioo ?_
    constructor <;> rw [rad] <;> nlinarith
  -- the direction turned by half a turn, as a complex number
  let z (y : X) : ℂ := ⟨-(Real.cos (rad (e y)) * Real.cos (rad (A y))), -(Real.cos (rad (e y)) * Real.sin (rad (A y)))⟩
  have hz : ∀ y, 0 < Real.cos (rad (e y)) → A y ≠ 0 → Complex.arg (z y) = rad (A y - 180) := by
    intro y hy h0
    have e1 : z y = (Real.cos (rad (e y)) : ℂ) * (Complex.cos (rad (A y - 180) : ℝ) + Complex.sin (rad (A y - 180) : ℝ) * Complex.I) := by
      have c : Real.cos (rad (A y - 180)) = -Real.cos (rad (A y)) := by rw [show rad (A y - 180) = rad (A y) - π by unfold rad; ring, Real.cos_sub_pi]
      have s : Real.sin (rad (A y - 180)) = -Real.sin (rad (A y)) := by rw [show rad (A y - 180) = rad (A y) - π by unfold rad; ring, Real.sin_sub_pi]
      rw [← Complex.ofReal_cos, ← Complex.ofReal_sin, c, s]
      exact complex_form _ _ _
    rw [e1, Complex.arg_mul_cos_add_sin_mul_I hy]
    have := hA y
    have : 0 < A y := lt_of_le_of_ne this.1 (Ne.symm h0)
    constructor <;> unfold rad <;> nlinarith [hA y]
  have cz : ContinuousAt z x := by
    have : Continuous z := by
      have h1 : Continuous fun y => ((-(Real.cos (rad (e y)) * Real.cos (rad (A y))) : ℝ) : ℂ) + ((-(Real.cos (rad (e y)) * Real.sin (rad (A y))) : ℝ) : ℂ) * Complex.I :=
        (Complex.continuous_ofReal.comp c1.neg).add ((Complex.continuous_ofReal.comp c2.neg).mul continuous_const)
      have e2 : z = fun y => ((-(Real.cos (rad (e y)) * Real.cos (rad (A y))) : ℝ) : ℂ) + ((-(Real.cos (rad (e y)) * Real.sin (rad (A y))) : ℝ) : ℂ) * Complex.I :=
        funext fun y => complex_form' _ _
      rw [e2]
      exact h1
    exact this.continuousAt
  have hs : z x ∈ Complex.slitPlane := by
    rw [Complex.mem_slitPlane_iff_arg]
    constructor
    · rw [hz x hc h0]
      unfold rad
      nlinarith [hA x]
    · intro h
      have h1 := congrArg Complex.re h
      have h2 := congrArg Complex.im h
      simp only [z, Complex.zero_re, Complex.zero_im, neg_eq_zero, mul_eq_zero, hc.ne', false_or] at h1 h2
      have := Real.sin_sq_add_cos_sq (rad (A x))
      rw [h1, h2] at this
      norm_num at this
  have ca : ContinuousAt (fun y => Complex.arg (z y) * (180 / π) + 180) x :=
    ((ContinuousAt.comp (f := z) (g := Complex.arg) (Complex.continuousAt_arg hs) cz).mul continuousAt_const).add continuousAt_const
  refine ca.congr ?_
  have n1 : ∀ᶠ y in nhds x, 0 < Real.cos (rad (e y)) := by
    have : Continuous fun y => Real.cos (rad (e y)) := by fun_prop
    exact continuousAt_const.eventually_lt this.continuousAt hc
  have n2 : ∀ᶠ y in nhds x, z y ∈ Complex.slitPlane := cz.eventually (Complex.isOpen_slitPlane.mem_nhds hs)
  filter_upwards [n1, n2] with y h1 h2
  have : A y ≠ 0 := by
    intro h
    rw [Complex.mem_slitPlane_iff] at h2
    simp only [z, h] at h2
    rw [show rad 0 = 0 by unfold rad; ring] at h2
    simp only [Real.cos_zero, Real.sin_zero, mul_one, mul_zero, neg_zero, ne_eq, not_true_eq_false, or_false] at h2
    linarith
  rw [hz y h1 this]
  unfold rad
  field_simp
  ring

/-- **C221** (true position): elevation and zenith vary continuously with time and place, and so does the direction of the sun (its northern and eastern components); the
azimuth does too, except where it passes north (from 360 to 0) and with the sun straight above or below. -/
theorem spa_continuous {p : Path X} (h : p.Ok) (pressure temp ar : X → Fl) :
    ∃ e A : X → ℝ, (∀ x, (p.out pressure temp ar x).elevation = fin (e x) ∧ (p.out pressure temp ar x).zenith = fin (90 - e x) ∧ (p.out pressure temp ar x).azimuth = fin (A x)) ∧
      Continuous e ∧ Continuous (fun x => Real.cos (rad (e x)) * Real.cos (rad (A x))) ∧ Continuous (fun x => Real.cos (rad (e x)) * Real.sin (rad (A x))) ∧
      ∀ x, |e x| < 90 → A x ≠ 0 → ContinuousAt A x := by
  obtain ⟨e, A, ce, c1, c2, hv⟩ := core h pressure temp ar
  exact ⟨e, A, fun x => ⟨(hv x).1, (hv x).2.1, (hv x).2.2.1⟩, ce, c1, c2, fun x hx h0 =>
    azimuth_of ce c1 c2 (fun x => (hv x).2.2.2.2.2) (fun x => ⟨(hv x).2.2.2.1, (hv x).2.2.2.2.1⟩) hx h0⟩

/-- **C221** (refraction): where the sun is above the switch of the refraction (0.26667 degrees and `atmos_refract` below the horizon) and not within 0.2 degrees of the zenith,
apparent elevation and zenith vary continuously too. -/
theorem apparent_continuous {p : Path X} (h : p.Ok) {P T a : X → ℝ} (cP : Continuous P) (cT : Continuous T) (ca : Continuous a) (hT : ∀ x, -273 < T x) {x : X} {e : ℝ}
    (he : (p.out (fun x => fin (P x)) (fun x => fin (T x)) (fun x => fin (a x)) x).elevation = fin e) (h1 : -(0.26667 + a x) < e) (h2 : -0.84 < e) (h3 : e < 89.8) :
    NoJump (fun x => (p.out (fun x => fin (P x)) (fun x => fin (T x)) (fun x => fin (a x)) x).apparent_elevation) x ∧
    NoJump (fun x => (p.out (fun x => fin (P x)) (fun x => fin (T x)) (fun x => fin (a x)) x).apparent_zenith) x := by
  obtain ⟨f, A, hv, cf, -⟩ := spa_continuous h (fun x => fin (P x)) (fun x => fin (T x)) (fun x => fin (a x))
  have ef : f x = e := Fl.fin.inj ((hv x).1.symm.trans he)
  have range : ∀ y, -0.84 < f y → f y < 89.8 → 0 < f y + 5.11 ∧ 0 < rad (refrArg (f y)) ∧ rad (refrArg (f y)) < π / 2 := by
    intro y a1 a2
    have hp := Real.pi_pos
    have q0 : 0 < f y + 5.11 := by norm_num at *; linarith
    have q1 : 0 < refrArg (f y) := by
      unfold refrArg
      have : 0 < (f y * (f y + 5.11) + 10.3) / (f y + 5.11) := div_pos (by norm_num at *; nlinarith) q0
      have e2 : f y + 10.3 / (f y + 5.11) = (f y * (f y + 5.11) + 10.3) / (f y + 5.11) := by field_simp
      rw [e2]; exact this
    have q2 : refrArg (f y) < 90 := by
      unfold refrArg
      have e2 : f y + 10.3 / (f y + 5.11) = (f y * (f y + 5.11) + 10.3) / (f y + 5.11) := by field_simp
      rw [e2, div_lt_iff₀ q0]
      norm_num at *
      nlinarith
    exact ⟨q0, by unfold rad; positivity, by unfold rad; nlinarith⟩
  have near : ∀ᶠ y in nhds x, -(0.26667 + a y) < f y ∧ -0.84 < f y ∧ f y < 89.8 := by
    have n1 : ∀ᶠ y in nhds x, -(0.26667 + a y) < f y :=
      ((by fun_prop : Continuous fun y => -(0.26667 + a y)).continuousAt.eventually_lt cf.continuousAt (by rw [ef]; exact h1))
    have n2 : ∀ᶠ y in nhds x, -0.84 < f y := continuousAt_const.eventually_lt cf.continuousAt (by rw [ef]; exact h2)
    have n3 : ∀ᶠ y in nhds x, f y < 89.8 := cf.continuousAt.eventually_lt continuousAt_const (by rw [ef]; exact h3)
    filter_upwards [n1, n2, n3] with y a1 a2 a3 using ⟨a1, a2, a3⟩
  let g (y : X) : ℝ := f y + P y / 1010 * (283 / (273 + T y)) * 1.02 / (60 * Real.tan (rad (refrArg (f y))))
  have hg : ∀ᶠ y in nhds x, (p.out (fun x => fin (P x)) (fun x => fin (T x)) (fun x => fin (a x)) y).apparent_elevation = fin (g y) := by
    filter_upwards [near] with y hy
    obtain ⟨r0, r1, r2⟩ := range y hy.2.1 hy.2.2
    have e1 : (p.out (fun x => fin (P x)) (fun x => fin (T x)) (fun x => fin (a x)) y).apparent_elevation =
        (p.out (fun x => fin (P x)) (fun x => fin (T x)) (fun x => fin (a x)) y).elevation +
        refractionCorrection (fin (P y)) (fin (T y)) (p.out (fun x => fin (P x)) (fun x => fin (T x)) (fun x => fin (a x)) y).elevation (fin (a y)) := rfl
    rw [e1, (hv y).1, refraction_eval _ _ _ _ (by linarith [hT y]) (by intro h; rw [h] at r0; norm_num at r0)
      (Real.cos_pos_of_mem_Ioo ⟨by linarith, r2⟩).ne' (Real.tan_pos_of_pos_of_lt_pi_div_two r1 r2).ne', if_pos hy.1.le, fin_add]
  have cg : ContinuousAt g x := by
    obtain ⟨r0, r1, r2⟩ := range x (by rw [ef]; exact h2) (by rw [ef]; exact h3)
    have cr : ContinuousAt (fun y => rad (refrArg (f y))) x := by
      unfold refrArg rad
      exact (cf.continuousAt.add (continuousAt_const.div (cf.continuousAt.add continuousAt_const) r0.ne')).mul continuousAt_const
    have ct : ContinuousAt (fun y => Real.tan (rad (refrArg (f y)))) x :=
      ContinuousAt.comp (f := fun y => rad (refrArg (f y))) (g := Real.tan) (Real.continuousAt_tan.2 (Real.cos_pos_of_mem_Ioo ⟨by linarith, r2⟩).ne') cr
    have cd : ContinuousAt (fun y => 283 / (273 + T y)) x := continuousAt_const.div (continuousAt_const.add cT.continuousAt) (by linarith [hT x])
    exact cf.continuousAt.add ((((cP.continuousAt.div_const _).mul cd).mul continuousAt_const).div (continuousAt_const.mul ct)
      (mul_ne_zero (by norm_num) (Real.tan_pos_of_pos_of_lt_pi_div_two r1 r2).ne'))
  refine ⟨⟨g, cg, hg⟩, ⟨fun y => 90 - g y, continuousAt_const.sub cg, ?_⟩⟩
  filter_upwards [hg] with y hy
  have e1 : (p.out (fun x => fin (P x)) (fun x => fin (T x)) (fun x => fin (a x)) y).apparent_zenith =
    90 - (p.out (fun x => fin (P x)) (fun x => fin (T x)) (fun x => fin (a x)) y).apparent_elevation := rfl
  rw [e1, hy, ofNat_eq, fin_sub]

/-! ### Witnesses -/

/-- A flight along the equator, `x` being hours: 900 km/h eastward at 10 km, from midnight of 1 January 2020. -/
def flight : Path (Set.Icc (0 : ℝ) 24) := ⟨fun _ => 0, fun x => 8 * x, fun _ => 10000, fun x => 1577836800 + 3600 * x, fun _ => 70⟩

private theorem flight_ok : flight.Ok := by
  refine ⟨continuous_const, ?_, continuous_const, ?_, continuous_const, fun _ => by norm_num [flight], fun _ => by norm_num [flight, abs_le], fun x => ?_⟩
  · unfold flight; fun_prop
  · unfold flight; fun_prop
  · obtain ⟨x, h0, h1⟩ := x
    simp only [flight, daysJ2000]
    rw [abs_le]
    norm_num
    constructor <;> linarith

/-- The equator, `x` being the longitude, at one moment. -/
def equator (t dt : ℝ) : Path ℝ := ⟨fun _ => 0, fun x => x, fun _ => 0, fun _ => t, fun _ => dt⟩

private theorem equator_ok {t dt : ℝ} (h : |daysJ2000 (t + dt)| ≤ 4 * 365250) : (equator t dt).Ok :=
  ⟨continuous_const, continuous_id, continuous_const, continuous_const, continuous_const, fun _ => by norm_num [equator], fun _ => by norm_num [equator], fun _ => h⟩

private theorem equator_sign {t dt : ℝ} (h : |daysJ2000 (t + dt)| ≤ 4 * 365250) (P T a : ℝ → Fl) : ∃ l : ℝ,
    (∀ e, ((equator t dt).out P T a l).elevation = fin e → 0 ≤ e) ∧ (∀ e, ((equator t dt).out P T a (l + 180)).elevation = fin e → e ≤ 0) := by
  obtain ⟨R, v, α, δ, dψ, ε, L, B, hg, -, -, -, hR, -, -, -, -, -, -, -, hδ, -⟩ := geo_spec t dt h
  have hp := Real.pi_pos
  have hp4 := Real.pi_le_four
  have hR0 : 0 < R := by
    have hR' := hR
    norm_num at hR'
    linarith
  have hs0 : 0 ≤ 8.794 / (3600 * R) := by positivity
  have hs1 : 8.794 / (3600 * R) ≤ 0.01 := by
    rw [div_le_iff₀ (by norm_num at *; linarith)]
    norm_num at *
    linarith
  have hs : |Real.sin (rad (8.794 / (3600 * R)))| ≤ 0.001 := by
    refine Real.abs_sin_le_abs.trans ?_
    rw [rad, abs_mul, abs_of_nonneg hs0, abs_of_pos (by positivity)]
    calc 8.794 / (3600 * R) * (π / 180) ≤ 0.01 * (4 / 180) := by gcongr
      _ ≤ 0.001 := by norm_num
  have hcδ : 1 / 2 ≤ Real.cos (rad δ) := by
    rw [← Real.cos_pi_div_three, ← Real.cos_abs (rad δ)]
    refine Real.cos_le_cos_of_nonneg_of_le_pi (abs_nonneg _) (by linarith) ?_
    rw [rad, abs_mul, abs_of_pos (show 0 < π / 180 by positivity)]
    calc |δ| * (π / 180) ≤ 30 * (π / 180) := by gcongr; norm_num at *; linarith
      _ ≤ π / 3 := by linarith
  have value : ∀ l e, ((equator t dt).out P T a l).elevation = fin e → -90 ≤ e ∧ e ≤ 90 ∧ ∃ ρ, 0 < ρ ∧
      ρ * Real.sin (rad e) = Real.cos (rad δ) * Real.cos (rad (v + l - α)) - Real.sin (rad (8.794 / (3600 * R))) := by
    intro l e he
    obtain ⟨e', A, x, y, d1, d2, d3, d4, d5, d6, d7, ob, ρ, hρ, u1, -, -⟩ := spa_direction 0 l 0 (P l) (T l) (a l) R v α δ (fin dψ) (fin ε)
      (fin (daysJ2000 (t + dt) / 365250)) (by norm_num) (by norm_num) (by norm_num at *; linarith) (by norm_num at *; linarith)
    have ee : e' = e := by
      unfold Path.out spaFull equator at he
      dsimp only at he
      rw [hg, d1] at he
      exact Fl.fin.inj he
    subst ee
    obtain ⟨ex, -⟩ := observer_unique ob (observer_value 0 0 (by norm_num))
    have r0 : rad 0 = 0 := by unfold rad; ring
    rw [r0, Real.tan_zero, mul_zero, Real.arctan_zero, Real.cos_zero] at ex
    refine ⟨d4, d5, ρ, hρ, u1.trans ?_⟩
    unfold upOf topoVec
    rw [r0, Real.cos_zero, Real.sin_zero, ex]
    simp
  have sgn : ∀ e ρ : ℝ, -90 ≤ e → e ≤ 90 → 0 < ρ → (0 ≤ ρ * Real.sin (rad e) → 0 ≤ e) ∧ (ρ * Real.sin (rad e) ≤ 0 → e ≤ 0) := by
    intro e ρ h1 h2 hρ
    constructor
    · intro h
      by_contra hn
      push Not at hn
      have : Real.sin (rad e) < 0 := Real.sin_neg_of_neg_of_neg_pi_lt (mul_neg_of_neg_of_pos hn (by positivity)) (by unfold rad; nlinarith)
      nlinarith
    · intro h
      by_contra hn
      push Not at hn
      have : 0 < Real.sin (rad e) := Real.sin_pos_of_pos_of_lt_pi (by unfold rad; positivity) (by unfold rad; nlinarith)
      nlinarith [mul_pos hρ this]
  have hs' := abs_le.1 hs
  refine ⟨α - v, fun e he => ?_, fun e he => ?_⟩
  · obtain ⟨a1, a2, ρ, hρ, hv⟩ := value _ _ he
    refine (sgn e ρ a1 a2 hρ).1 ?_
    rw [hv, show rad (v + (α - v) - α) = 0 by unfold rad; ring, Real.cos_zero]
    norm_num at *
    linarith
  · obtain ⟨a1, a2, ρ, hρ, hv⟩ := value _ _ he
    refine (sgn e ρ a1 a2 hρ).2 ?_
    rw [hv, show rad (v + (α - v + 180) - α) = π by unfold rad; ring, Real.cos_pi]
    norm_num at *
    linarith

/-- At every moment the sun is exactly on the horizon somewhere on the equator. -/
theorem horizon_somewhere {t dt : ℝ} (h : |daysJ2000 (t + dt)| ≤ 4 * 365250) (P T a : ℝ → Fl) : ∃ l : ℝ, ((equator t dt).out P T a l).elevation = fin 0 := by
  obtain ⟨e, A, hv, ce, -⟩ := spa_continuous (equator_ok h) P T a
  obtain ⟨l, h1, h2⟩ := equator_sign h P T a
  obtain ⟨m, hm⟩ := mem_range_of_exists_le_of_exists_ge ce ⟨_, h2 _ (hv _).1⟩ ⟨_, h1 _ (hv _).1⟩
  exact ⟨m, by rw [(hv m).1, hm]⟩

private theorem era2020 : |daysJ2000 (1577836800 + 70)| ≤ 4 * 365250 := by norm_num [daysJ2000, abs_le]

example : ∃ l : ℝ, NoJump (fun x => ((equator 1577836800 70).out (fun _ => fin 1013) (fun _ => fin 12) (fun _ => fin 0.5667) x).apparent_elevation) l := by
  obtain ⟨l, hl⟩ := horizon_somewhere era2020 (fun _ => fin 1013) (fun _ => fin 12) (fun _ => fin 0.5667)
  exact ⟨l, (apparent_continuous (equator_ok era2020) (P := fun _ => 1013) (T := fun _ => 12) (a := fun _ => 0.5667) continuous_const continuous_const continuous_const
    (fun _ => by norm_num) hl (by norm_num) (by norm_num) (by norm_num)).1⟩

example := spa_continuous flight_ok (fun _ => 1013) (fun _ => 12) (fun _ => 0.5667)

end Pvlib.Props.SpaContinuity
end
