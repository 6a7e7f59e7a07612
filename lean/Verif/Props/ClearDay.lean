import Verif.Props.AirMass
import Verif.Props.Clearsky
import Verif.Props.ClearskySolis
import Verif.Props.DayCourse

/-! # Property C244: the course of a clear day -/

noncomputable section
open scoped Classical
open Real
namespace Pvlib.Props.ClearDay
open Fl Pvlib.Clearsky Pvlib.SolarPosition Pvlib.Atmosphere Pvlib.Spec Pvlib.Tools Pvlib.Props.SolarGeometry Pvlib.Props.DayCourse

private theorem fl_trans {a b c : Fl} (h : a ≤ b) (g : b ≤ c) : a ≤ c := by
  cases a <;> cases b <;> cases c <;> simp_all
  linarith

/-! ### The Ineichen model with the air mass of the same sun -/

private theorem cos_nonpos {z : ℝ} (h0 : 90 ≤ z) (h1 : z ≤ 180) : cosDeg z ≤ 0 := by
  have hp := Real.pi_pos
  apply Real.cos_nonpos_of_pi_div_two_le_of_le
  · have : 90 * (π / 180) ≤ z * (π / 180) := mul_le_mul_of_nonneg_right h0 (by positivity)
    linarith
  · have : z * (π / 180) ≤ 180 * (π / 180) := mul_le_mul_of_nonneg_right h1 (by positivity)
    linarith

private theorem cos_pos {z : ℝ} (h0 : 0 ≤ z) (h1 : z < 90) : 0 < cosDeg z := by
  have hp := Real.pi_pos
  apply Real.cos_pos_of_mem_Ioo
  constructor
  · have : 0 ≤ z * (π / 180) := by positivity
    linarith
  · have : z * (π / 180) < 90 * (π / 180) := mul_lt_mul_of_pos_right h1 (by positivity)
    linarith

private theorem cos_anti {z z' : ℝ} (h0 : 0 ≤ z) (h : z ≤ z') (h1 : z' ≤ 180) : cosDeg z' ≤ cosDeg z := by
  have hp := Real.pi_pos
  apply Real.cos_le_cos_of_nonneg_of_le_pi
  · positivity
  · calc z' * (π / 180) ≤ 180 * (π / 180) := by gcongr
      _ = π := by ring
  · gcongr

/-- The published formula, without the (irrelevant) bound on the share of the beam. -/
private theorem same_air {z z' am tl alt I0 : ℝ} (h0 : 0 < cosDeg z') (hcc : cosDeg z' ≤ cosDeg z) (ht : 1 ≤ tl) (hI : 0 ≤ I0)
    (halt : -17000 ≤ alt) :
    (ineichen (fin z') (fin am) (fin tl) (fin alt) (fin I0)).ghi ≤ (ineichen (fin z) (fin am) (fin tl) (fin alt) (fin I0)).ghi ∧
    (ineichen (fin z') (fin am) (fin tl) (fin alt) (fin I0)).dni ≤ (ineichen (fin z) (fin am) (fin tl) (fin alt) (fin I0)).dni := by
  have hc := h0.trans_le hcc
  rw [Clearsky.ineichen_day (z := z') h0 (by linarith) (by simp), Clearsky.ineichen_day hc (by linarith) (by simp)]
  have hg1 : 0 ≤ Clearsky.cg1 alt := by unfold Clearsky.cg1; norm_num; linarith
  have hK : 0 ≤ Clearsky.cg1 alt * I0 * Real.exp (-(Clearsky.cg2 alt) * am * (Clearsky.fh1 alt + Clearsky.fh2 alt * (tl - 1))) := by
    have := Real.exp_pos (-(Clearsky.cg2 alt) * am * (Clearsky.fh1 alt + Clearsky.fh2 alt * (tl - 1)))
    positivity
  have hG : ∀ c, Clearsky.ineichenGhi c am tl alt I0 false =
      Clearsky.cg1 alt * I0 * Real.exp (-(Clearsky.cg2 alt) * am * (Clearsky.fh1 alt + Clearsky.fh2 alt * (tl - 1))) * c := by
    intro c; unfold Clearsky.ineichenGhi; simp only [Bool.false_eq_true, if_false]; ring
  simp only [hG, fin_le]
  generalize Clearsky.cg1 alt * I0 * Real.exp (-(Clearsky.cg2 alt) * am * (Clearsky.fh1 alt + Clearsky.fh2 alt * (tl - 1))) = K at hK
  refine ⟨mul_le_mul_of_nonneg_left hcc hK, min_le_min le_rfl ?_⟩
  have e : ∀ c : ℝ, 0 < c → K * c * min (Clearsky.beamShare tl alt / c) 1e20 = K * min (Clearsky.beamShare tl alt) (1e20 * c) := by
    intro c hc
    rw [mul_assoc, mul_min_of_nonneg _ _ hc.le]
    congr 2
    · field_simp
    · ring
  rw [e _ h0, e _ hc]
  exact mul_le_mul_of_nonneg_left (min_le_min le_rfl (mul_le_mul_of_nonneg_left hcc (by norm_num))) hK

/-- **C244**: with the air mass of the same sun (any model that grows monotonically), ineichen's global and beam irradiance never increase as
the sun sinks, down to the nadir. -/
theorem ineichen_lower_sun (model : String) {z z' p tl alt I0 : ℝ} (hm : pyLower model ∈ AirMass.names)
    (hy : pyLower model ≠ "youngirvine1967") (h0 : AirMass.monotoneFrom (pyLower model) ≤ z) (h : z ≤ z') (h1 : z' ≤ 180)
    (h90 : z = 90 ∨ z' = 90 → pyLower model ≠ "simple") (hp : 0 ≤ p) (ht : 1 ≤ tl) (hI : 0 ≤ I0) (halt : -980 ≤ alt) :
    ∃ am am', relativeAirmass (fin z) model = .ok am ∧ relativeAirmass (fin z') model = .ok am' ∧
      (ineichen (fin z') (absoluteAirmass am' (fin p)) (fin tl) (fin alt) (fin I0)).ghi ≤
        (ineichen (fin z) (absoluteAirmass am (fin p)) (fin tl) (fin alt) (fin I0)).ghi ∧
      (ineichen (fin z') (absoluteAirmass am' (fin p)) (fin tl) (fin alt) (fin I0)).dni ≤
        (ineichen (fin z) (absoluteAirmass am (fin p)) (fin tl) (fin alt) (fin I0)).dni := by
  have hf0 : 0 ≤ AirMass.monotoneFrom (pyLower model) := by unfold AirMass.monotoneFrom; split_ifs <;> norm_num
  have hz0 : 0 ≤ z := hf0.trans h0
  have ht0 : tl ≠ 0 := by linarith
  have habs : ∀ a : ℝ, absoluteAirmass (fin a) (fin p) = fin (a * p / 101325) := by
    intro a
    unfold absoluteAirmass
    rw [ofNat_eq, fin_mul, fin_div (by norm_num)]
  have hnan : absoluteAirmass nan (fin p) = nan := by simp [absoluteAirmass]
  -- the air mass exists, and is a number or NaN
  have hex : ∀ w : ℝ, 0 ≤ w → (w = 90 → pyLower model ≠ "simple") → ∃ am, relativeAirmass (fin w) model = .ok am ∧
      (w ≤ 90 → am = fin (AirMass.published (pyLower model) w)) ∧ (am = nan ∨ ∃ a, am = fin a) := by
    intro w hw0 hw
    by_cases hw1 : w ≤ 90
    · exact ⟨_, AirMass.airmass_value model w hw0 hw1 hm (fun g => ⟨hw g, hy⟩), fun _ => rfl, .inr ⟨_, rfl⟩⟩
    · obtain ⟨am, ha⟩ := (Atmosphere.airmass_accepts model (fin w)).2 (by
        simp only [AirMass.names, List.mem_cons, List.not_mem_nil, or_false] at hm
        simp only [Atmosphere.documented, List.mem_cons, List.not_mem_nil, or_false]
        tauto)
      have := Atmosphere.airmass_night model (fin w) (.inl (by rw [ofNat_eq, fin_lt]; exact_mod_cast not_le.1 hw1)) am ha
      exact ⟨am, ha, fun g => absurd g hw1, .inl this⟩
  obtain ⟨am, ha, hav, haf⟩ := hex z hz0 (fun g => h90 (.inl g))
  obtain ⟨am', ha', hav', haf'⟩ := hex z' (hz0.trans h) (fun g => h90 (.inr g))
  refine ⟨am, am', ha, ha', ?_⟩
  have night : ∀ w : ℝ, 90 ≤ w → w ≤ 180 → ∀ a, (a = nan ∨ ∃ x, a = fin x) →
      ineichen (fin w) (absoluteAirmass a (fin p)) (fin tl) (fin alt) (fin I0) = ⟨0, 0, 0⟩ := by
    rintro w h90' h180 a (rfl | ⟨x, rfl⟩)
    · rw [hnan]; exact Clearsky.ineichen_night (cos_nonpos h90' h180) ht0 (.inl rfl) hI
    · rw [habs]; exact Clearsky.ineichen_night (cos_nonpos h90' h180) ht0 (.inr ⟨_, rfl⟩) hI
  rcases le_or_gt 90 z' with hn' | hd'
  · rw [night z' hn' h1 am' haf']
    rcases le_or_gt 90 z with hn | hd
    · rw [night z hn (h.trans h1) am haf]; simp
    · obtain rfl := hav hd.le
      rw [habs]
      have hpub : 0 < AirMass.published (pyLower model) z := by
        obtain ⟨a, b, e1, -, hpos, -⟩ := AirMass.airmass_increasing model z ((z + 90) / 2) hm hy h0 (by linarith) (by linarith)
          (fun g => by linarith)
        rw [ha] at e1
        injection e1 with e1
        rw [fin_inj] at e1
        rwa [e1]
      obtain ⟨g, n, d, e, -, hg, hn, -⟩ := Clearsky.ineichen_closure (z := z) (perez := false) (alt := alt) ht0
        (by positivity : 0 ≤ AirMass.published (pyLower model) z * p / 101325) hI (by linarith)
      rw [e]
      simp only [zero_eq, fin_le]
      exact ⟨hg, hn⟩
  · obtain rfl := hav (by linarith)
    obtain rfl := hav' hd'.le
    have hc' := cos_pos (hz0.trans h) hd'
    have hcc := cos_anti hz0 h h1
    obtain ⟨hpos, hle⟩ : 0 ≤ AirMass.published (pyLower model) z ∧
        AirMass.published (pyLower model) z ≤ AirMass.published (pyLower model) z' := by
      rcases h.lt_or_eq with hlt | heq
      · obtain ⟨a, b, e1, e2, hp1, hp2⟩ := AirMass.airmass_increasing model z z' hm hy h0 hlt hd'.le (fun g => by linarith)
        rw [ha] at e1
        rw [ha'] at e2
        injection e1 with e1
        injection e2 with e2
        rw [fin_inj] at e1 e2
        rw [e1, e2]; exact ⟨hp1.le, hp2.le⟩
      · subst heq
        obtain ⟨a, b, e1, -, hp1, -⟩ := AirMass.airmass_increasing model z ((z + 90) / 2) hm hy h0 (by linarith) (by linarith)
          (fun g => by linarith)
        rw [ha] at e1
        injection e1 with e1
        rw [fin_inj] at e1
        rw [e1]; exact ⟨hp1.le, le_rfl⟩
    rw [habs, habs]
    obtain ⟨a1, a2⟩ := same_air (am := AirMass.published (pyLower model) z' * p / 101325) hc' hcc ht hI (by linarith : -17000 ≤ alt)
    obtain ⟨b1, b2⟩ := Clearsky.ineichen_antitone (z := z) ht (le_refl tl)
      (by positivity : 0 ≤ AirMass.published (pyLower model) z * p / 101325)
      (by gcongr : AirMass.published (pyLower model) z * p / 101325 ≤ AirMass.published (pyLower model) z' * p / 101325) hI halt
    exact ⟨fl_trans a1 b1, fl_trans a2 b2⟩

/-- Afternoon and evening, with the usual air mass. -/
example := ineichen_lower_sun "kastenyoung1989" (z := 50) (z' := 80) (p := 101325) (tl := 3) (alt := 100) (I0 := 1364)
  (by decide +kernel) (by decide +kernel) (by
    rw [show pyLower "kastenyoung1989" = "kastenyoung1989" by decide +kernel]
    rw [AirMass.monotoneFrom, if_neg (by decide), if_neg (by decide)]; norm_num) (by norm_num) (by norm_num) (by norm_num) (by norm_num) (by norm_num) (by norm_num) (by norm_num)

/-! ### The course of the day -/

/-- The zenith angle in degrees, as a user gets it from the analytical functions. -/
def zenithAt (φ δ h : ℝ) : Fl := Fl.degrees (solarZenithAnalytical (fin φ) (fin h) (fin δ))

private theorem zenithAt_spec (φ δ h : ℝ) : ∃ z : ℝ, zenithAt φ δ h = fin z ∧ 0 ≤ z ∧ z ≤ 180 ∧ cosDeg z = sunUp φ δ h ∧
    ∃ r, solarZenithAnalytical (fin φ) (fin h) (fin δ) = fin r ∧ z = r * (180 / π) := by
  have hp := Real.pi_pos
  obtain ⟨r, e, r0, r1, rc, -⟩ := zenith_angle φ h δ
  refine ⟨r * (180 / π), by rw [zenithAt, e]; simp [Fl.degrees], by positivity, ?_, ?_, r, e, rfl⟩
  · calc r * (180 / π) ≤ π * (180 / π) := by gcongr
      _ = 180 := by field_simp
  · rw [← rc]
    unfold cosDeg
    congr 1; field_simp

private theorem later {φ δ h h' : ℝ} (h1 : |φ| ≤ π / 2) (h2 : |δ| ≤ π / 2) (hh : |h| ≤ |h'|) (hp : |h'| ≤ π) :
    ∃ z z' : ℝ, zenithAt φ δ h = fin z ∧ zenithAt φ δ h' = fin z' ∧ 0 ≤ z ∧ z ≤ z' ∧ z' ≤ 180 := by
  obtain ⟨z, e, z0, z1, -, r, er, rfl⟩ := zenithAt_spec φ δ h
  obtain ⟨z', e', z0', z1', -, r', er', rfl⟩ := zenithAt_spec φ δ h'
  obtain ⟨w, w', f, f', hw⟩ := nearer_noon h1 h2 hh hp
  rw [er, fin_inj] at f
  rw [er', fin_inj] at f'
  subst f f'
  exact ⟨_, _, e, e', z0, mul_le_mul_of_nonneg_right hw (by positivity), z1'⟩

/-- **C244**: on a clear day the three models give the same light before and after noon. -/
theorem symmetric (φ δ h : ℝ) : zenithAt φ δ (-h) = zenithAt φ δ h := by
  unfold zenithAt; rw [(zenith_symmetric φ h δ).1]

/-- **C244**: haurwitz gives the most light at noon, and the less the further from noon. -/
theorem haurwitz_day {φ δ h h' : ℝ} (h1 : |φ| ≤ π / 2) (h2 : |δ| ≤ π / 2) (hh : |h| ≤ |h'|) (hp : |h'| ≤ π) :
    haurwitz (zenithAt φ δ h') ≤ haurwitz (zenithAt φ δ h) := by
  obtain ⟨z, z', e, e', z0, hz, z1⟩ := later h1 h2 hh hp
  rw [e, e']
  exact ClearskySolis.haurwitz_antitone z0 hz z1

/-- **C244**: it gives light exactly while the sun is above the horizon. -/
theorem haurwitz_daylight (φ δ h : ℝ) : ∃ g : ℝ, haurwitz (zenithAt φ δ h) = fin g ∧ 0 ≤ g ∧ (0 < g ↔ 0 < sunUp φ δ h) := by
  obtain ⟨z, e, -, -, hc, -⟩ := zenithAt_spec φ δ h
  obtain ⟨g, hg, g0, -, hi⟩ := ClearskySolis.haurwitz_range z
  exact ⟨g, by rw [e, hg], g0, by rw [hi, hc]⟩

/-- **C244**: simplified_solis, from the elevation (90° less the zenith angle), gives the most global and beam irradiance at noon, and the
less the further from noon. -/
theorem solis_day {φ δ h h' a pw p I0 : ℝ} (hs : ClearskySolis.SolisRange a pw p) (hI : 0 ≤ I0) (h1 : |φ| ≤ π / 2) (h2 : |δ| ≤ π / 2)
    (hh : |h| ≤ |h'|) (hp : |h'| ≤ π) :
    (simplifiedSolis (90 - zenithAt φ δ h') (fin a) (fin pw) (fin p) (fin I0)).ghi ≤
      (simplifiedSolis (90 - zenithAt φ δ h) (fin a) (fin pw) (fin p) (fin I0)).ghi ∧
    (simplifiedSolis (90 - zenithAt φ δ h') (fin a) (fin pw) (fin p) (fin I0)).dni ≤
      (simplifiedSolis (90 - zenithAt φ δ h) (fin a) (fin pw) (fin p) (fin I0)).dni := by
  obtain ⟨z, z', e, e', z0, hz, z1⟩ := later h1 h2 hh hp
  rw [e, e', ofNat_eq, fin_sub, fin_sub]
  refine ClearskySolis.solis_monotone hs hI ?_ ?_ ?_ <;> linarith

/-- **C244**: ineichen, with the air mass of the same sun, gives the most global and beam irradiance at noon, and the less the further from
noon, at noons where the sun stays as far from the zenith as the air-mass model is monotone (0.1° for kastenyoung1989). -/
theorem ineichen_day {φ δ h h' p tl alt I0 : ℝ} (h1 : |φ| ≤ π / 2) (h2 : |δ| ≤ π / 2)
    (hh : |h| ≤ |h'|) (hp : |h'| ≤ π) (hz : 0.1 * (π / 180) ≤ |φ - δ|) (hpp : 0 ≤ p) (ht : 1 ≤ tl) (hI : 0 ≤ I0) (halt : -980 ≤ alt) :
    ∃ am am', relativeAirmass (zenithAt φ δ h) "kastenyoung1989" = .ok am ∧
      relativeAirmass (zenithAt φ δ h') "kastenyoung1989" = .ok am' ∧
      (ineichen (zenithAt φ δ h') (absoluteAirmass am' (fin p)) (fin tl) (fin alt) (fin I0)).ghi ≤
        (ineichen (zenithAt φ δ h) (absoluteAirmass am (fin p)) (fin tl) (fin alt) (fin I0)).ghi ∧
      (ineichen (zenithAt φ δ h') (absoluteAirmass am' (fin p)) (fin tl) (fin alt) (fin I0)).dni ≤
        (ineichen (zenithAt φ δ h) (absoluteAirmass am (fin p)) (fin tl) (fin alt) (fin I0)).dni := by
  have hpi := Real.pi_pos
  obtain ⟨z, z', e, e', z0, hzz, z1⟩ := later h1 h2 hh hp
  have hnoon : 0.1 ≤ z := by
    obtain ⟨n, w, en, ew, n0, hn, -⟩ := later (φ := φ) (δ := δ) (h := 0) (h' := h) h1 h2 (by rw [abs_zero]; exact abs_nonneg _)
      (hh.trans hp)
    rw [e, fin_inj] at ew
    subst ew
    have hle : |φ - δ| ≤ π := (abs_sub _ _).trans (by linarith)
    unfold zenithAt at en
    rw [zenith_noon hle] at en
    simp only [Fl.degrees, fin_mul, fin_inj] at en
    subst en
    refine le_trans ?_ hn
    calc (0.1 : ℝ) = 0.1 * (π / 180) * (180 / π) := by field_simp
      _ ≤ |φ - δ| * (180 / π) := mul_le_mul_of_nonneg_right hz (by positivity)
  have hname : pyLower "kastenyoung1989" = "kastenyoung1989" := by decide +kernel
  rw [e, e']
  refine ineichen_lower_sun "kastenyoung1989" (by decide +kernel) (by decide +kernel) ?_ hzz z1 (fun _ => by decide +kernel) hpp ht hI halt
  rw [hname]
  have hm : AirMass.monotoneFrom "kastenyoung1989" = 0.1 := by
    rw [AirMass.monotoneFrom, if_neg (by decide), if_neg (by decide)]
  rw [hm]; exact hnoon

/-- A spring day at 40° North, ten o'clock against sunset. -/
example := ineichen_day (φ := 0.7) (δ := 0.1) (h := -0.5) (h' := 1.6) (p := 101325) (tl := 3) (alt := 100) (I0 := 1364)
  (by rw [abs_of_pos (by norm_num)]; linarith [Real.pi_gt_three]) (by rw [abs_of_pos (by norm_num)]; linarith [Real.pi_gt_three])
  (by rw [abs_of_neg (by norm_num), abs_of_pos (by norm_num)]; norm_num) (by rw [abs_of_pos (by norm_num)]; linarith [Real.pi_gt_three])
  (by rw [abs_of_pos (by norm_num)]; linarith [Real.pi_lt_four]) (by norm_num) (by norm_num) (by norm_num) (by norm_num)

end Pvlib.Props.ClearDay
end
