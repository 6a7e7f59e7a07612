import Verif.Props.SpaPosition

/-! # C120: `spa.transit_sunrise_sunset` -/

noncomputable section
open scoped Classical
open Real
namespace Pvlib.Props.SpaRiseSet
open Fl Pvlib.Spa Pvlib.Tools Pvlib.Props.SolarGeometry Pvlib.Props.SpaBounds Pvlib.Props.SpaGeometry
  Pvlib.Props.SpaPosition

/-! ## Which dates are accepted -/

theorem mod_zero_iff (d : Fl) : Fl.mod d 86400 = 0 ↔ ∃ n : ℤ, d = fin (86400 * n) := by
  cases d with
  | nan => simp
  | ninf => simp [Fl.mod]
  | pinf => simp [Fl.mod]
  | fin x =>
    rw [ofNat_eq, mod_fin (by norm_num), zero_eq, fin_inj]
    constructor
    · intro h
      exact ⟨⌊x / 86400⌋, by rw [fin_inj]; linarith⟩
    · rintro ⟨n, h⟩
      rw [fin_inj] at h
      have : x / 86400 = (n : ℝ) := by rw [h]; field_simp
      rw [this, Int.floor_intCast, h]
      ring

/-- **C120a.** The call is rejected exactly when some date is not a whole number of days after the epoch (a NaT is
not); otherwise there is one result per date, each depending on its own date only. -/
theorem accepts_iff (sst : Fl → Fl → Fl × Fl × Fl) (lat lon : Fl) (dates : List (Fl × Fl)) :
    (transitSunriseSunset sst lat lon dates = .error .valueError ↔ ∃ d ∈ dates, ¬ ∃ n : ℤ, d.1 = fin (86400 * n)) ∧
    ((∀ d ∈ dates, ∃ n : ℤ, d.1 = fin (86400 * n)) → ∃ res, transitSunriseSunset sst lat lon dates = .ok res ∧
      res.length = dates.length ∧ ∀ i (h : i < dates.length) (h' : i < res.length),
        transitSunriseSunset sst lat lon [dates[i]] = .ok [res[i]]) := by
  have hex : (∃ d ∈ dates, Fl.mod d.1 86400 ≠ 0) ↔ ∃ d ∈ dates, ¬ ∃ n : ℤ, d.1 = fin (86400 * n) := by
    simp only [ne_eq, mod_zero_iff]
  constructor
  · unfold transitSunriseSunset
    split_ifs with h
    · simp only [true_iff]
      exact hex.mp h
    · simp only [reduceCtorEq, false_iff]
      exact fun h' => h (hex.mpr h')
  · intro hall
    have hno : ¬ ∃ d ∈ dates, Fl.mod d.1 86400 ≠ 0 := by
      rw [hex]
      rintro ⟨d, hd, hn⟩
      exact hn (hall d hd)
    refine ⟨_, by unfold transitSunriseSunset; rw [if_neg hno], by simp, ?_⟩
    intro i h h'
    unfold transitSunriseSunset
    have : ¬ ∃ d ∈ [dates[i]], Fl.mod d.1 86400 ≠ 0 := by
      rintro ⟨d, hd, hn⟩
      rw [List.mem_singleton] at hd
      subst hd
      exact hno ⟨_, List.getElem_mem h, hn⟩
    rw [if_neg this]
    simp

example (sst lat lon) := (accepts_iff sst lat lon [(fin (86400 * (18262 : ℤ)), fin 70)]).2 (fun d hd => by
  simp only [List.mem_singleton] at hd; subst hd; exact ⟨18262, rfl⟩)

/-! ## The hour angle of sunrise and sunset -/

/-- The sine of the altitude at which the upper limb appears (-0.8333 degrees). -/
def horizonSin : ℝ := Real.sin (rad (-0.8333))

theorem cosArg_fin (φ δ : ℝ) (hφ : |φ| < 90) (hδ : |δ| < 90) :
    0 < Real.cos (rad φ) ∧ 0 < Real.cos (rad δ) ∧
    cosArg (fin φ) (fin δ) =
      (if 1 < |(horizonSin - Real.sin (rad φ) * Real.sin (rad δ)) / (Real.cos (rad φ) * Real.cos (rad δ))| then nan else
        fin ((horizonSin - Real.sin (rad φ) * Real.sin (rad δ)) / (Real.cos (rad φ) * Real.cos (rad δ)))) := by
  have hp := Real.pi_pos
  have hcos : ∀ z : ℝ, |z| < 90 → 0 < Real.cos (rad z) := by
    intro z hz
    have := abs_lt.mp hz
    apply Real.cos_pos_of_mem_Ioo
    constructor <;> rw [rad] <;> nlinarith
  refine ⟨hcos _ hφ, hcos _ hδ, ?_⟩
  unfold cosArg
  simp only [ofScientific_eq, neg_fin, radians_fin, sin_fin, cos_fin, fin_mul, fin_sub]
  rw [fin_div (mul_pos (hcos _ hφ) (hcos _ hδ)).ne', abs_fin, one_eq, fin_lt]
  rfl

/-- **C120b.** If the sun (declination fixed) crosses the horizon altitude, `H0` is the hour angle at which it
does so: between 0 and 180 degrees, with the sun at altitude -0.8333 degrees.  (At a crossing exactly at midnight the
`% 180` gives 0 instead of 180.) -/
theorem h0_crosses (φ δ : ℝ) (hφ : |φ| < 90) (hδ : |δ| < 90)
    (hlo : sunUp (rad φ) (rad δ) π < horizonSin) (hhi : horizonSin ≤ sunUp (rad φ) (rad δ) 0) :
    ∃ H, h0 (fin φ) (fin δ) = fin H ∧ 0 ≤ H ∧ H < 180 ∧ sunUp (rad φ) (rad δ) (rad H) = horizonSin := by
  have hp := Real.pi_pos
  obtain ⟨cφ, cδ, he⟩ := cosArg_fin φ δ hφ hδ
  rw [sunUp_eq] at hlo hhi
  rw [Real.cos_pi] at hlo
  rw [Real.cos_zero] at hhi
  set c := (horizonSin - Real.sin (rad φ) * Real.sin (rad δ)) / (Real.cos (rad φ) * Real.cos (rad δ)) with hc
  have hpos := mul_pos cφ cδ
  have c1 : -1 < c := by rw [hc, lt_div_iff₀ hpos]; linarith
  have c2 : c ≤ 1 := by rw [hc, div_le_one hpos]; linarith
  rw [if_neg (by rw [not_lt, abs_le]; exact ⟨c1.le, c2⟩)] at he
  have ha1 := Real.arccos_nonneg c
  have ha2 : Real.arccos c < π := by
    rcases lt_or_eq_of_le (Real.arccos_le_pi c) with h | h
    · exact h
    · have := congrArg Real.cos h
      rw [Real.cos_arccos c1.le c2, Real.cos_pi] at this
      linarith
  have hH1 : 0 ≤ Real.arccos c * (180 / π) := by positivity
  have hH2 : Real.arccos c * (180 / π) < 180 := by
    calc _ < π * (180 / π) := mul_lt_mul_of_pos_right ha2 (by positivity)
      _ = 180 := by field_simp
  refine ⟨Real.arccos c * (180 / π), ?_, hH1, hH2, ?_⟩
  · unfold h0
    rw [he, arccos_fin c1.le c2, degrees_fin, ofNat_eq, mod_fin (by norm_num)]
    have : ⌊Real.arccos c * (180 / π) / 180⌋ = 0 := by
      rw [Int.floor_eq_zero_iff]
      exact ⟨by positivity, by rw [div_lt_one (by norm_num)]; exact hH2⟩
    rw [this]
    simp
  · rw [rad_deg, sunUp_eq, Real.cos_arccos c1.le c2, hc]
    field_simp
    ring

/-- **C120c.** If the sun stays above the horizon altitude all day (polar day) or below it (polar night), `H0` is
NaN, and only then. -/
theorem h0_nan_iff (φ δ : ℝ) (hφ : |φ| < 90) (hδ : |δ| < 90) :
    h0 (fin φ) (fin δ) = nan ↔
      (∀ h, horizonSin < sunUp (rad φ) (rad δ) h) ∨ (∀ h, sunUp (rad φ) (rad δ) h < horizonSin) := by
  obtain ⟨cφ, cδ, he⟩ := cosArg_fin φ δ hφ hδ
  set c := (horizonSin - Real.sin (rad φ) * Real.sin (rad δ)) / (Real.cos (rad φ) * Real.cos (rad δ)) with hc
  have hpos := mul_pos cφ cδ
  have key : ∀ h, sunUp (rad φ) (rad δ) h - horizonSin = Real.cos (rad φ) * Real.cos (rad δ) * (Real.cos h - c) := by
    intro h
    rw [sunUp_eq, hc]
    field_simp
    ring
  by_cases hgt : 1 < |c|
  · rw [if_pos hgt] at he
    have : h0 (fin φ) (fin δ) = nan := by unfold h0; rw [he]; simp
    simp only [this, true_iff]
    rcases lt_abs.mp hgt with h1 | h1
    · right
      intro h
      have := key h
      have h2 := Real.cos_le_one h
      nlinarith
    · left
      intro h
      have := key h
      have h2 := Real.neg_one_le_cos h
      nlinarith
  · rw [if_neg hgt] at he
    push Not at hgt
    obtain ⟨c1, c2⟩ := abs_le.mp hgt
    have hne : h0 (fin φ) (fin δ) ≠ nan := by
      unfold h0
      rw [he, arccos_fin c1 c2, degrees_fin, ofNat_eq, mod_fin (by norm_num)]
      simp
    simp only [hne, false_iff, not_or, not_forall, not_lt]
    have k := key (Real.arccos c)
    rw [Real.cos_arccos c1 c2, sub_self, mul_zero] at k
    exact ⟨⟨Real.arccos c, by linarith⟩, ⟨Real.arccos c, by linarith⟩⟩

example := h0_nan_iff 80 (-20) (by norm_num [abs_lt]) (by norm_num [abs_lt])

/-! ## The day-to-day change of right ascension -/

/-- A change across the 360/0 wrap is recovered, provided it is between 0 and 1 degree per day. -/
theorem unwrap_recovers (x : ℝ) (h0 : 0 ≤ x) (h1 : x < 1) : unwrap1 (fin (x - 360)) = fin x := by
  unfold unwrap1
  rw [abs_fin, ofNat_eq, fin_lt, if_pos, one_eq, mod_fin (by norm_num)]
  · have : ⌊(x - 360) / 1⌋ = -360 := by
      rw [div_one, Int.floor_eq_iff]
      push_cast
      constructor <;> linarith
    rw [this, fin_inj]
    push_cast
    ring
  · rw [abs_of_neg (by linarith)]
    linarith

example := unwrap_recovers 0.3 (by norm_num) (by norm_num)

/-- A change of at most two degrees is left alone. -/
theorem unwrap_small (x : ℝ) (h : |x| ≤ 2) : unwrap1 (fin x) = fin x := by
  unfold unwrap1
  rw [abs_fin, ofNat_eq, fin_lt, if_neg (not_lt.mpr h)]

example := unwrap_small (-0.3) (by norm_num [abs_le])

/-- Finding: a change between 1 and 2 degrees across the wrap loses a degree. -/
theorem unwrap_loses (x : ℝ) (h1 : 1 ≤ x) (h2 : x < 2) : unwrap1 (fin (x - 360)) = fin (x - 1) := by
  unfold unwrap1
  rw [abs_fin, ofNat_eq, fin_lt, if_pos, one_eq, mod_fin (by norm_num)]
  · have : ⌊(x - 360) / 1⌋ = -359 := by
      rw [div_one, Int.floor_eq_iff]
      push_cast
      constructor <;> linarith
    rw [this, fin_inj]
    push_cast
    ring
  · rw [abs_of_neg (by linarith)]
    linarith

example := unwrap_loses 1.2 (by norm_num) (by norm_num)

/-! ## The three times -/

private theorem unwrap_fin (x : ℝ) : ∃ a, unwrap1 (fin x) = fin a := by
  unfold unwrap1
  split_ifs
  · rw [one_eq, mod_fin (by norm_num)]; exact ⟨_, rfl⟩
  · exact ⟨_, rfl⟩

private theorem asin_arg (a b c : ℝ) : -1 ≤ Real.sin a * Real.sin b + Real.cos a * Real.cos b * Real.cos c ∧
    Real.sin a * Real.sin b + Real.cos a * Real.cos b * Real.cos c ≤ 1 := by
  have := sunUp_mem a b c
  rw [sunUp_eq] at this
  constructor <;> linarith

/-- At a real day fraction everything interpolated is real and the hour angle lies in [-180, 180). -/
theorem atFraction_fin (φ lon dt v v0 α0 δ0 vn αn δn vp αp δp m : ℝ) :
    ∃ d H h, atFraction (fin φ) (fin lon) (fin dt) (fin v) (fin v0, fin α0, fin δ0) (fin vn, fin αn, fin δn)
      (fin vp, fin αp, fin δp) (fin m) = (fin d, fin H, fin h) ∧ -180 ≤ H ∧ H < 180 ∧ -90 ≤ h ∧ h ≤ 90 ∧
      Real.sin (rad h) = sunUp (rad φ) (rad d) (rad H) := by
  obtain ⟨a, ha⟩ := unwrap_fin (α0 - αn)
  obtain ⟨ap, hap⟩ := unwrap_fin (δ0 - δn)
  obtain ⟨b, hb⟩ := unwrap_fin (αp - α0)
  obtain ⟨bp, hbp⟩ := unwrap_fin (δp - δ0)
  rw [← fin_sub] at ha hap hb hbp
  set z := v + 360.985647 * m + lon - (α0 + (m + dt / 86400) * (a + b + (b - a) * (m + dt / 86400)) / 2) with hz
  obtain ⟨z1, z2⟩ := mod360 z
  set w := z - 360 * ⌊z / 360⌋ with hw
  set d := δ0 + (m + dt / 86400) * (ap + bp + (bp - ap) * (m + dt / 86400)) / 2 with hd
  have en : fin m + fin dt / 86400 = fin (m + dt / 86400) := by
    rw [ofNat_eq, fin_div (by norm_num), fin_add]
  have ez : Fl.mod (fin v + 360.985647 * fin m + fin lon - (fin α0 + (fin (m + dt / 86400) *
      (fin a + fin b + (fin b - fin a) * fin (m + dt / 86400))) / 2)) 360 = fin w := by
    simp only [fin_sub, fin_add, fin_mul, ofNat_eq, ofScientific_eq]
    rw [fin_div (by norm_num), fin_add, fin_sub, mod_fin (by norm_num)]
  have ed : fin δ0 + (fin (m + dt / 86400) * (fin ap + fin bp + (fin bp - fin ap) * fin (m + dt / 86400))) / 2 = fin d := by
    simp only [fin_sub, fin_add, fin_mul, ofNat_eq]
    rw [fin_div (by norm_num), fin_add]
  have hHp : ∃ H, (if (180 : Fl) ≤ fin w then fin w - 360 else fin w) = fin H ∧ -180 ≤ H ∧ H < 180 := by
    by_cases h180 : (180 : ℝ) ≤ w
    · exact ⟨w - 360, by rw [if_pos (show (180 : Fl) ≤ fin w from h180)]; simp, by linarith, by linarith⟩
    · exact ⟨w, by rw [if_neg (show ¬ (180 : Fl) ≤ fin w from h180)], by linarith, by linarith⟩
  unfold atFraction
  dsimp only
  rw [ha, hap, hb, hbp, en, ez, ed]
  obtain ⟨H, hH, hH1, hH2⟩ := hHp
  rw [hH]
  simp only [radians_fin, sin_fin, cos_fin, fin_mul, fin_add]
  have hh := asin_arg (φ * (π / 180)) (d * (π / 180)) (H * (π / 180))
  rw [arcsin_fin hh.1 hh.2, degrees_fin]
  refine ⟨d, H, _, rfl, hH1, hH2, (arcsin_deg _).1, (arcsin_deg _).2, ?_⟩
  rw [rad_deg, Real.sin_arcsin hh.1 hh.2, sunUp_eq]
  simp only [rad]
  ring

theorem frac_range (x : ℝ) : 0 ≤ x - 1 * ⌊x / 1⌋ ∧ x - 1 * ⌊x / 1⌋ < 1 := by
  rw [div_one, one_mul]
  exact ⟨by linarith [Int.floor_le x], by linarith [Int.lt_floor_add_one x]⟩

private theorem shift (c : Fl) (m s u : ℝ) :
    ((fin (m + s) + c) * 86400 - 86400 + fin u = fin ((m + s - 1) * 86400 + u) + c * 86400) ∧
    ((fin (m + s) + c) * 86400 + 86400 + fin u = fin ((m + s + 1) * 86400 + u) + c * 86400) ∧
    ((fin (m + s) + c) * 86400 + fin u = fin ((m + s) * 86400 + u) + c * 86400) := by
  have hpos : infSign (86400 : ℝ) = pinf := infSign_pos (by norm_num)
  have hneg : infSign (-86400 : ℝ) = ninf := infSign_neg (by norm_num)
  cases c with
  | fin c =>
    simp only [ofNat_eq, fin_add, fin_mul, fin_sub, fin_inj]
    exact ⟨by ring, by ring, by ring⟩
  | nan => simp
  | pinf => simp [hpos]
  | ninf => simp [hneg]

/-- The transit time, and the sunrise and sunset times undone of the wrap into the day: sunrise is `H0` before and
sunset `H0` after the approximate transit (360 degrees a day), each plus its altitude correction - even when that is
on the day before or after. -/
theorem times_spec (sst : Fl → Fl → Fl × Fl × Fl) (φ lon dt : ℝ) (n : ℤ) (v v' δv α0 δ0 v0 αn δn vn αp δp vp : ℝ)
    (h1 : sst (fin (86400 * n)) (fin dt) = (fin v, fin v', fin δv))
    (h2 : sst (fin (86400 * n - dt)) (fin dt) = (fin v0, fin α0, fin δ0))
    (h3 : sst (fin (86400 * n - dt - 86400)) (fin dt) = (fin vn, fin αn, fin δn))
    (h4 : sst (fin (86400 * n - dt + 86400)) (fin dt) = (fin vp, fin αp, fin δp)) :
    ∃ m, 0 ≤ m ∧ m < 1 ∧ (∃ k : ℤ, m = (α0 - lon - v) / 360 + k) ∧
      (∃ τ, (transitSunriseSunset1 sst (fin φ) (fin lon) (fin dt) (fin (86400 * n))).1 = fin τ ∧
        86400 * n + 86400 * m - 43200 < τ ∧ τ ≤ 86400 * n + 86400 * m + 43200) ∧
      (h0 (fin φ) (fin δ0) = nan →
        (transitSunriseSunset1 sst (fin φ) (fin lon) (fin dt) (fin (86400 * n))).2.1 = nan ∧
        (transitSunriseSunset1 sst (fin φ) (fin lon) (fin dt) (fin (86400 * n))).2.2 = nan) ∧
      (∀ H, h0 (fin φ) (fin δ0) = fin H → 0 ≤ H → H < 180 → ∃ cR cS : Fl,
        (transitSunriseSunset1 sst (fin φ) (fin lon) (fin dt) (fin (86400 * n))).2.1 =
          fin ((m - H / 360) * 86400 + 86400 * n) + cR * 86400 ∧
        (transitSunriseSunset1 sst (fin φ) (fin lon) (fin dt) (fin (86400 * n))).2.2 =
          fin ((m + H / 360) * 86400 + 86400 * n) + cS * 86400 ∧
        (∃ d Hp h, cR = (fin (h + 0.8333)) / fin (360 * Real.cos (rad d) * Real.cos (rad φ) * Real.sin (rad Hp)) ∧
          Real.sin (rad h) = sunUp (rad φ) (rad d) (rad Hp)) ∧
        (∃ d Hp h, cS = (fin (h + 0.8333)) / fin (360 * Real.cos (rad d) * Real.cos (rad φ) * Real.sin (rad Hp)) ∧
          Real.sin (rad h) = sunUp (rad φ) (rad d) (rad Hp))) := by
  have eu : Fl.floor (fin (86400 * n) / 86400) * 86400 = fin (86400 * n) := by
    rw [ofNat_eq, fin_div (by norm_num), floor_fin, fin_mul, fin_inj]
    have : (86400 : ℝ) * n / 86400 = n := by field_simp
    rw [this, Int.floor_intCast]
    ring
  set x := (α0 - lon - v) / 360 with hx
  set m := x - 1 * ⌊x / 1⌋ with hm
  have hmr := frac_range x
  have em0 : Fl.mod ((fin α0 - fin lon - fin v) / 360) 1 = fin m := by
    rw [ofNat_eq, fin_sub, fin_sub, fin_div (by norm_num), one_eq, mod_fin (by norm_num)]
  have corr : ∀ z : ℝ, ∃ d Hp h, atFraction (fin φ) (fin lon) (fin dt) (fin v) (fin v0, fin α0, fin δ0) (fin vn, fin αn, fin δn)
      (fin vp, fin αp, fin δp) (fin z) = (fin d, fin Hp, fin h) ∧
      riseCorrection (fin φ) (fin d, fin Hp, fin h) =
        (fin (h + 0.8333)) / fin (360 * Real.cos (rad d) * Real.cos (rad φ) * Real.sin (rad Hp)) ∧
      Real.sin (rad h) = sunUp (rad φ) (rad d) (rad Hp) := by
    intro z
    obtain ⟨d, Hp, h, e, -, -, -, -, es⟩ := atFraction_fin φ lon dt v v0 α0 δ0 vn αn δn vp αp δp z
    refine ⟨d, Hp, h, e, ?_, es⟩
    unfold riseCorrection
    simp [ofNat_eq, ofScientific_eq]
  have sh1 : fin (86400 * (n:ℝ)) - fin dt = fin (86400 * n - dt) := by simp
  have sh2 : fin (86400 * (n:ℝ) - dt) - 86400 = fin (86400 * n - dt - 86400) := by simp
  have sh3 : fin (86400 * (n:ℝ) - dt) + 86400 = fin (86400 * n - dt + 86400) := by simp
  refine ⟨m, hmr.1, hmr.2, ⟨-⌊x / 1⌋, by rw [hm]; push_cast; ring⟩, ?_, ?_, ?_⟩
  · obtain ⟨d, Hp, h, e, b1, b2, -, -, -⟩ := atFraction_fin φ lon dt v v0 α0 δ0 vn αn δn vp αp δp m
    refine ⟨(m - Hp / 360) * 86400 + 86400 * n, ?_, by linarith, by linarith⟩
    unfold transitSunriseSunset1
    dsimp only
    rw [eu, sh1, sh2, sh3, h1, h2, h3, h4]
    dsimp only
    rw [em0, e]
    dsimp only
    rw [ofNat_eq, fin_div (by norm_num)]
    simp
  · intro hn
    unfold transitSunriseSunset1
    dsimp only
    rw [eu, sh1, sh2, sh3, h1, h2, h3, h4]
    dsimp only
    rw [em0, hn]
    simp
  · intro H hH hH1 hH2
    have eR : fin m - fin H / 360 = fin (m - H / 360) := by
      rw [ofNat_eq, fin_div (by norm_num), fin_sub]
    have eS : fin m + fin H / 360 = fin (m + H / 360) := by
      rw [ofNat_eq, fin_div (by norm_num), fin_add]
    have fR : Fl.mod (fin (m - H / 360)) 1 = fin (m - H / 360 + if m - H / 360 < 0 then 1 else 0) := by
      rw [one_eq, mod_fin (by norm_num), fin_inj, div_one, one_mul]
      split_ifs with hneg
      · have : ⌊m - H / 360⌋ = -1 := by
          rw [Int.floor_eq_iff]
          push_cast
          constructor <;> linarith
        rw [this]; push_cast; ring
      · have : ⌊m - H / 360⌋ = 0 := by
          rw [Int.floor_eq_iff]
          push_cast
          constructor <;> linarith
        rw [this]; push_cast; ring
    have fS : Fl.mod (fin (m + H / 360)) 1 = fin (m + H / 360 + if 1 ≤ m + H / 360 then -1 else 0) := by
      rw [one_eq, mod_fin (by norm_num), fin_inj, div_one, one_mul]
      split_ifs with hge
      · have : ⌊m + H / 360⌋ = 1 := by
          rw [Int.floor_eq_iff]
          push_cast
          constructor <;> linarith
        rw [this]; push_cast; ring
      · have : ⌊m + H / 360⌋ = 0 := by
          rw [Int.floor_eq_iff]
          push_cast
          constructor <;> linarith
        rw [this]; push_cast; ring
    obtain ⟨dR, HR, hR, eaR, ecR, esR⟩ := corr (m - H / 360 + if m - H / 360 < 0 then 1 else 0)
    obtain ⟨dS, HS, hS, eaS, ecS, esS⟩ := corr (m + H / 360 + if 1 ≤ m + H / 360 then -1 else 0)
    refine ⟨_, _, ?_, ?_, ⟨dR, HR, hR, rfl, esR⟩, ⟨dS, HS, hS, rfl, esS⟩⟩
    · unfold transitSunriseSunset1
      dsimp only
      rw [eu, sh1, sh2, sh3, h1, h2, h3, h4]
      dsimp only
      rw [em0, hH, eR, fR, eaR, ecR]
      simp only [zero_eq, fin_lt]
      by_cases hneg : m - H / 360 < 0
      · simp only [hneg, if_true]
        rw [(shift _ _ _ _).1]
        congr 2
        ring
      · simp only [hneg, if_false]
        rw [(shift _ _ _ _).2.2]
        congr 2
        ring
    · unfold transitSunriseSunset1
      dsimp only
      rw [eu, sh1, sh2, sh3, h1, h2, h3, h4]
      dsimp only
      rw [em0, hH, eS, fS, eaS, ecS]
      simp only [one_eq, fin_le]
      by_cases hge : 1 ≤ m + H / 360
      · simp only [hge, if_true]
        rw [(shift _ _ _ _).2.1]
        congr 2
        ring
      · simp only [hge, if_false]
        rw [(shift _ _ _ _).2.2]
        congr 2
        ring

private theorem sst_fin (t dt : ℝ) (h : |daysJ2000 (t + dt)| ≤ 4 * 365250) :
    ∃ v α δ, spaSst (fin t) (fin dt) = (fin v, fin α, fin δ) ∧ 0 ≤ α ∧ α < 360 ∧ |δ| < 24.3 := by
  obtain ⟨R, v, α, δ, dψ, ε, L, B, hg, -, -, -, -, -, -, -, -, -, a1, a2, hδ, -⟩ := geo_spec t dt h
  refine ⟨v, α, δ, ?_, a1, a2, hδ⟩
  unfold spaSst
  rw [hg]

/-- **C120.** For every date within 4000 years of J2000, every latitude short of the poles and every longitude:
the transit is a real time within 36 hours of the start of the date; sunrise and sunset are both NaN
if the sun (at its declination of 0:00) stays above, or stays below, the horizon altitude; otherwise
they lie `H / 15` hours before and after the approximate transit, up to their corrections. -/
theorem spa_rise_set (φ lon dt : ℝ) (n : ℤ) (hφ : |φ| < 90) (hdt : |dt| ≤ 86400)
    (hn : |86400 * (n : ℝ) / 86400 + 2440587.5 - 2451545| ≤ 4 * 365250 - 2) :
    ∃ δ0 m τ, |δ0| < 24.3 ∧ (spaSst (fin (86400 * n - dt)) (fin dt)).2.2 = fin δ0 ∧ 0 ≤ m ∧ m < 1 ∧
      (transitSunriseSunset1 spaSst (fin φ) (fin lon) (fin dt) (fin (86400 * n))).1 = fin τ ∧
      |τ - (86400 * n + 86400 * m)| ≤ 43200 ∧
      (((∀ h, horizonSin < sunUp (rad φ) (rad δ0) h) ∨ (∀ h, sunUp (rad φ) (rad δ0) h < horizonSin)) →
        (transitSunriseSunset1 spaSst (fin φ) (fin lon) (fin dt) (fin (86400 * n))).2.1 = nan ∧
        (transitSunriseSunset1 spaSst (fin φ) (fin lon) (fin dt) (fin (86400 * n))).2.2 = nan) ∧
      (sunUp (rad φ) (rad δ0) π < horizonSin → horizonSin ≤ sunUp (rad φ) (rad δ0) 0 →
        ∃ (H : ℝ) (cR cS : Fl), 0 ≤ H ∧ H < 180 ∧ sunUp (rad φ) (rad δ0) (rad H) = horizonSin ∧
          (transitSunriseSunset1 spaSst (fin φ) (fin lon) (fin dt) (fin (86400 * n))).2.1 =
            fin ((m - H / 360) * 86400 + 86400 * n) + cR * 86400 ∧
          (transitSunriseSunset1 spaSst (fin φ) (fin lon) (fin dt) (fin (86400 * n))).2.2 =
            fin ((m + H / 360) * 86400 + 86400 * n) + cS * 86400) := by
  have hb := abs_le.mp hn
  have hd := abs_le.mp hdt
  have days : ∀ x : ℝ, daysJ2000 x = x / 86400 + 2440587.5 - 2451545 := fun x => rfl
  obtain ⟨v, v', δv, e1, -⟩ := sst_fin (86400 * n) dt (by
    rw [days, abs_le]; constructor <;> linarith)
  obtain ⟨v0, α0, δ0, e2, -, -, hδ⟩ := sst_fin (86400 * n - dt) dt (by
    rw [days, abs_le]; constructor <;> linarith)
  obtain ⟨vn, αn, δn, e3, -⟩ := sst_fin (86400 * n - dt - 86400) dt (by
    rw [days, abs_le]; constructor <;> linarith)
  obtain ⟨vp, αp, δp, e4, -⟩ := sst_fin (86400 * n - dt + 86400) dt (by
    rw [days, abs_le]; constructor <;> linarith)
  have hδ90 : |δ0| < 90 := by norm_num at hδ ⊢; linarith
  obtain ⟨m, m1, m2, -, ⟨τ, t1, t2, t3⟩, hnan, hcross⟩ := times_spec spaSst φ lon dt n v v' δv α0 δ0 v0 αn δn vn αp δp vp
    e1 e2 e3 e4
  refine ⟨δ0, m, τ, hδ, by rw [e2], m1, m2, t1, by rw [abs_le]; constructor <;> linarith, ?_, ?_⟩
  · intro h
    exact hnan ((h0_nan_iff φ δ0 hφ hδ90).mpr h)
  · intro hlo hhi
    obtain ⟨H, hH, hH1, hH2, hH3⟩ := h0_crosses φ δ0 hφ hδ90 hlo hhi
    obtain ⟨cR, cS, hR, hS, -, -⟩ := hcross H hH hH1 hH2
    exact ⟨H, cR, cS, hH1, hH2, hH3, hR, hS⟩

/-- Between the 60th parallels the sun crosses the horizon altitude every day: no NaN from polar day or night. -/
theorem no_polar_day (φ δ0 : ℝ) (hφ : |φ| ≤ 60) (hδ : |δ0| < 24.3) :
    sunUp (rad φ) (rad δ0) π < horizonSin ∧ horizonSin ≤ sunUp (rad φ) (rad δ0) 0 := by
  have hp := Real.pi_pos
  have a := abs_le.mp hφ
  have b := abs_lt.mp hδ
  have hcos : ∀ z : ℝ, |z| ≤ 84.3 → Real.sin (rad 5.7) ≤ Real.cos (rad z) := by
    intro z hz
    rw [← Real.cos_abs, ← Real.cos_pi_div_two_sub]
    refine Real.cos_le_cos_of_nonneg_of_le_pi (abs_nonneg _) ?_ ?_
    · rw [rad]; norm_num; nlinarith
    · rw [rad, rad, abs_mul, abs_of_pos (show 0 < π / 180 by positivity)]
      have : |z| * (π / 180) ≤ 84.3 * (π / 180) := by gcongr
      norm_num at *
      linarith
  have hs : -horizonSin < Real.sin (rad 5.7) := by
    unfold horizonSin
    rw [← Real.sin_neg]
    refine Real.sin_lt_sin_of_lt_of_le_pi_div_two ?_ ?_ ?_ <;> (try rw [rad]) <;> (try rw [rad]) <;> norm_num <;> nlinarith
  have hs0 : horizonSin ≤ 0 := by
    unfold horizonSin
    refine Real.sin_nonpos_of_nonpos_of_neg_pi_le ?_ ?_ <;> rw [rad] <;> norm_num <;> nlinarith
  have h5 : 0 ≤ Real.sin (rad 5.7) := Real.sin_nonneg_of_nonneg_of_le_pi (by rw [rad]; positivity) (by rw [rad]; norm_num; nlinarith)
  constructor
  · rw [sunUp_eq, Real.cos_pi]
    have h1 := hcos (φ + δ0) (by rw [abs_le]; norm_num at *; constructor <;> linarith)
    have : rad (φ + δ0) = rad φ + rad δ0 := by rw [rad, rad, rad]; ring
    rw [this, Real.cos_add] at h1
    linarith
  · rw [sunUp_eq, Real.cos_zero]
    have h1 := hcos (φ - δ0) (by rw [abs_le]; norm_num at *; constructor <;> linarith)
    have : rad (φ - δ0) = rad φ - rad δ0 := by rw [rad, rad, rad]; ring
    rw [this, Real.cos_sub] at h1
    linarith

/-- Witness: 2020-01-01 (day 18262) at Golden, Colorado, has a sunrise. -/
example : ∃ δ0 m H : ℝ, ∃ cR : Fl, |δ0| < 24.3 ∧ 0 ≤ H ∧ H < 180 ∧
    (transitSunriseSunset1 spaSst (fin 39.74) (fin (-105.18)) (fin 70) (fin (86400 * (18262 : ℤ)))).2.1 =
      fin ((m - H / 360) * 86400 + 86400 * (18262 : ℤ)) + cR * 86400 := by
  obtain ⟨δ0, m, τ, hδ, -, -, -, -, -, -, hc⟩ := spa_rise_set 39.74 (-105.18) 70 18262 (by norm_num [abs_lt])
    (by norm_num [abs_le]) (by norm_num [abs_le])
  obtain ⟨lo, hi⟩ := no_polar_day 39.74 δ0 (by norm_num [abs_le]) hδ
  obtain ⟨H, cR, cS, a, b, -, e, -⟩ := hc lo hi
  exact ⟨δ0, m, H, cR, hδ, a, b, e⟩

end Pvlib.Props.SpaRiseSet
end
