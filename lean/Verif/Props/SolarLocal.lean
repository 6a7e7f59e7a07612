import Verif.Props.SolarGeometry

/-! # C110, C111: hour angle, sunrise, sunset and transit in local time -/

noncomputable section
open scoped Classical
open Real
namespace Pvlib.Props.SolarLocal
open Fl Pvlib.SolarPosition Pvlib.Irradiance Pvlib.Props.SolarGeometry

/-! ## Specification -/

/-- The hour angle (degrees) at UTC instant `u` (s) of the day whose *UTC* midnight is `D` (s), at
`longitude` (degrees east), with the equation of time `eot` (minutes): 15° per hour of apparent solar time
after solar noon. -/
def trueHourAngle (u D longitude eot : ℝ) : ℝ := 15 * ((u - D) / 3600 - 12) + longitude + eot / 4

/-- `D` is midnight UTC of the date that local clocks show at `u`. -/
def IsLocalDate (z : Zone) (u D : ℝ) : Prop := (∃ n : ℤ, D = 86400 * n) ∧ D ≤ u + z u ∧ u + z u < D + 86400

/-- Local clocks read `w` at `m` and never at another instant. -/
def OnlyAt (z : Zone) (w m : ℝ) : Prop := m + z m = w ∧ ∀ u, u + z u = w → u = m

/-- The local date is unique, and is what the code computes. -/
theorem dayStart_spec {z : Zone} {u D : ℝ} (h : IsLocalDate z u D) : dayStart (wall z u) = D := by
  obtain ⟨⟨n, rfl⟩, h1, h2⟩ := h
  have : ⌊wall z u / 86400⌋ = n := by
    rw [Int.floor_eq_iff]
    constructor
    · rw [le_div_iff₀ (by norm_num)]; unfold wall; linarith
    · rw [div_lt_iff₀ (by norm_num)]; unfold wall; linarith
  simp [dayStart, this]

theorem localDate_exists (z : Zone) (u : ℝ) : ∃ D, IsLocalDate z u D := by
  refine ⟨86400 * ⌊(u + z u) / 86400⌋, ⟨_, rfl⟩, ?_, ?_⟩
  · have := Int.floor_le ((u + z u) / 86400)
    rw [le_div_iff₀ (by norm_num)] at this; linarith
  · have := Int.lt_floor_add_one ((u + z u) / 86400)
    rw [div_lt_iff₀ (by norm_num)] at this; linarith

theorem localizeRaise_ok {z : Zone} {w m : ℝ} (h : OnlyAt z w m) : localizeRaise z w = .ok m := by
  have hu : ∃! u, wall z u = w := ⟨m, h.1, fun y hy => h.2 y hy⟩
  rw [localizeRaise, dif_pos hu]
  congr 1
  exact h.2 _ hu.choose_spec.1

theorem localizeRaise_error {z : Zone} {w : ℝ} (h : ∀ m, ¬ OnlyAt z w m) :
    localizeRaise z w = .error .valueError := by
  rw [localizeRaise, dif_neg]
  rintro ⟨m, h1, h2⟩
  exact h m ⟨h1, h2⟩

theorem localizeShift_ok {z : Zone} {w m : ℝ} (h : OnlyAt z w m) : localizeShift z w = .ok m := by
  rw [localizeShift, if_pos ⟨m, h.1⟩, localizeRaise_ok h]

private theorem hoursAfter_ok {z : Zone} {u D m : ℝ} (hD : IsLocalDate z u D) (h : OnlyAt z D m) :
    hoursAfterMidnight z u = .ok ((u - m) / 3600) := by
  rw [hoursAfterMidnight, dayStart_spec hD, localizeShift_ok h]; rfl

/-- A fixed offset shows every wall time exactly once. -/
theorem fixed_onlyAt (o w : ℝ) : OnlyAt (fun _ => o) w (w - o) :=
  ⟨by ring, fun u hu => by linarith⟩

theorem mapErr_ok {α β : Type} (f : α → Except PyErr β) (g : α → β) (l : List α)
    (h : ∀ a ∈ l, f a = .ok (g a)) : mapErr f l = .ok (l.map g) := by
  induction l with
  | nil => rfl
  | cons a l ih =>
      rw [mapErr, h a (by simp), ih fun b hb => h b (by simp [hb])]; rfl

theorem mapErr_error {α β : Type} (f : α → Except PyErr β) (l : List α) (e : PyErr)
    (h : ∀ a ∈ l, f a = .error e ∨ ∃ b, f a = .ok b) (h' : ∃ a ∈ l, f a = .error e) : mapErr f l = .error e := by
  induction l with
  | nil => simp at h'
  | cons a l ih =>
      rw [mapErr]
      rcases h a (by simp) with ha | ⟨b, hb⟩
      · rw [ha]; rfl
      · rw [hb]
        have : ∃ a ∈ l, f a = .error e := by
          obtain ⟨c, hc, he⟩ := h'
          rcases List.mem_cons.1 hc with rfl | hc
          · rw [hb] at he; cases he
          · exact ⟨c, hc, he⟩
        show (mapErr f l).bind _ = _
        rw [ih (fun c hc => h c (by simp [hc])) this]; rfl

/-! ## Hour angle -/

/-- Naive times are refused. -/
theorem naive_refused (times : List ℝ) (lon lat : Fl) (eot dec : List Fl) :
    hourAngle ⟨none, times⟩ lon eot = .error .valueError ∧
    sunRiseSetTransitGeometric ⟨none, times⟩ lat lon dec eot = .error .valueError := ⟨rfl, rfl⟩

/-- The hour angle in a zone of constant offset: whatever the offset, it is the hour angle of the instant on
its local date - it depends on the zone only through that date. -/
theorem hour_angle_fixed (o lon : ℝ) (l : List (ℝ × ℝ)) (D : ℝ → ℝ)
    (hD : ∀ p ∈ l, IsLocalDate (fun _ => o) p.1 (D p.1)) :
    hourAngle ⟨some fun _ => o, l.map Prod.fst⟩ (fin lon) (l.map fun p => fin p.2) =
      .ok (l.map fun p => fin (trueHourAngle p.1 (D p.1) lon p.2)) := by
  have hz : (l.map Prod.fst).zip (l.map fun p => fin p.2) = l.map fun p => (p.1, fin p.2) := by
    rw [List.zip_map', ]
  show mapErr _ _ = _
  simp only
  rw [hz, mapErr_ok (g := fun q : ℝ × Fl => (15 * (fin ((q.1 - (D q.1 - o)) / 3600) - fin (o / 3600) - 12) +
    fin lon + q.2 / 4 : Fl))]
  · rw [List.map_map]
    congr 1
    apply List.map_congr_left
    intro p _
    simp only [Function.comp, ofNat_eq, fin_sub, fin_mul, fin_add, Fl.fin_div (show (4:ℝ) ≠ 0 by norm_num)]
    congr 1
    unfold trueHourAngle; ring
  · intro q hq
    obtain ⟨p, hp, rfl⟩ := List.mem_map.1 hq
    simp only
    rw [hoursAfter_ok (hD p hp) (fixed_onlyAt o _)]; rfl

/-- Seven hours behind UTC, at 9:40 on the first day. -/
theorem demo_date : IsLocalDate (fun _ => -25200) 60000 0 := ⟨⟨0, by simp⟩, by norm_num, by norm_num⟩
theorem demo_only : OnlyAt (fun _ => -25200) 0 25200 := ⟨by norm_num, fun u h => by linarith⟩

example := hour_angle_fixed (-25200) (-106) [(60000, -3.5), (61000, -3.5)] (fun _ => 0) (by
  intro p hp
  simp only [List.mem_cons, List.not_mem_nil, or_false] at hp
  rcases hp with rfl | rfl
  · exact demo_date
  · exact ⟨⟨0, by simp⟩, by norm_num, by norm_num⟩)

/-- One element, any zone: with local midnight at the instant `m`, the result is the hour angle shifted by
15° per hour of difference between the offsets at midnight and at the time itself. -/
theorem hour_angle_zone {z : Zone} {u D m : ℝ} (hD : IsLocalDate z u D) (hm : OnlyAt z D m) (lon eot : ℝ) :
    hourAngle ⟨some z, [u]⟩ (fin lon) [fin eot] =
      .ok [fin (trueHourAngle u D lon eot + 15 * ((z m - z u) / 3600))] := by
  show mapErr _ _ = _
  simp only [List.zip_cons_cons, List.zip_nil_left, mapErr, hoursAfter_ok hD hm]
  show Except.ok _ = _
  simp only [ofNat_eq, fin_sub, fin_mul, fin_add, Fl.fin_div (show (4:ℝ) ≠ 0 by norm_num)]
  congr 3
  have := hm.1
  unfold trueHourAngle; rw [← this]; ring

example := hour_angle_zone demo_date demo_only (-106) (-3.5)

/-- On a day without clock change the hour angle is correct. -/
theorem hour_angle_ordinary_day {z : Zone} {u D m : ℝ} (hD : IsLocalDate z u D) (hm : OnlyAt z D m)
    (hz : z m = z u) (lon eot : ℝ) :
    hourAngle ⟨some z, [u]⟩ (fin lon) [fin eot] = .ok [fin (trueHourAngle u D lon eot)] := by
  rw [hour_angle_zone hD hm, hz]; simp

example := hour_angle_ordinary_day demo_date demo_only rfl (-106) (-3.5)

/-- On the day clocks go forward by an hour, after the change, it is 15° too small (and 15° too large after
they go back). -/
theorem hour_angle_dst_day {z : Zone} {u D m : ℝ} (hD : IsLocalDate z u D) (hm : OnlyAt z D m)
    (hz : z u = z m + 3600) (lon eot : ℝ) :
    hourAngle ⟨some z, [u]⟩ (fin lon) [fin eot] = .ok [fin (trueHourAngle u D lon eot - 15)] := by
  rw [hour_angle_zone hD hm, hz]; congr 3; ring

/-- Clocks go forward by an hour at 02:00 on the first day. -/
def demoSpring : Zone := fun t => if t < 7200 then 0 else 3600
theorem demoSpring_date : IsLocalDate demoSpring 40000 0 := by
  refine ⟨⟨0, by simp⟩, ?_, ?_⟩ <;> norm_num [demoSpring]
theorem demoSpring_only : OnlyAt demoSpring 0 0 := by
  refine ⟨by norm_num [demoSpring], fun u hu => ?_⟩
  unfold demoSpring at hu
  by_cases h : u < 7200
  · simp only [h, if_true] at hu; linarith
  · simp only [h, if_false] at hu; linarith

example := hour_angle_dst_day demoSpring_date demoSpring_only (by norm_num [demoSpring]) (-106) (-3.5)

/-- If clocks jump over midnight, midnight is replaced by the moment of the jump (which must be at the
nonexistent midnight's own start for the result below): no exception, but again off by the jump. -/
theorem hour_angle_skipped_midnight {a b T u D : ℝ} (hab : a < b) (hT : T + a = D) (hu : T ≤ u)
    (hD : IsLocalDate (fun t => if t < T then a else b) u D) (lon eot : ℝ) :
    hourAngle ⟨some fun t => if t < T then a else b, [u]⟩ (fin lon) [fin eot] =
      .ok [fin (trueHourAngle u D lon eot - 15 * ((b - a) / 3600))] := by
  set z : Zone := fun t => if t < T then a else b with hz
  have hzu : z u = b := by simp [hz, not_lt.2 hu]
  have hno : ¬ ∃ t, wall z t = D := by
    rintro ⟨t, ht⟩
    unfold wall at ht
    by_cases h : t < T
    · simp only [hz, h, if_true] at ht; linarith
    · simp only [hz, h, if_false] at ht; linarith [not_lt.1 h]
  have hset : {t | D ≤ wall z t} = Set.Ici T := by
    ext t
    simp only [Set.mem_setOf_eq, Set.mem_Ici, wall]
    by_cases h : t < T
    · simp only [hz, h, if_true]
      constructor <;> intro h' <;> linarith
    · simp only [hz, h, if_false]
      constructor
      · intro _; exact not_lt.1 h
      · intro h'; linarith
  show mapErr _ _ = _
  simp only [List.zip_cons_cons, List.zip_nil_left, mapErr, hoursAfterMidnight, dayStart_spec hD, localizeShift,
    if_neg hno, hset, csInf_Ici]
  show Except.ok _ = _
  simp only [hzu, ofNat_eq, fin_sub, fin_mul, fin_add, Fl.fin_div (show (4:ℝ) ≠ 0 by norm_num)]
  congr 3
  unfold trueHourAngle; rw [← hT]; ring

example := hour_angle_skipped_midnight (a := 0) (b := 3600) (T := 0) (u := 40000) (D := 0) (by norm_num) (by norm_num) (by norm_num)
  ⟨⟨0, by simp⟩, by norm_num, by norm_num⟩ (-106) (-3.5)

/-- If clocks show midnight twice, the call raises. -/
theorem hour_angle_repeated_midnight {z : Zone} {u D m m' : ℝ} (hD : IsLocalDate z u D) (h1 : m + z m = D)
    (h2 : m' + z m' = D) (hne : m ≠ m') (lon eot : Fl) :
    hourAngle ⟨some z, [u]⟩ lon [eot] = .error .valueError := by
  have h : localizeRaise z D = .error .valueError := by
    apply localizeRaise_error
    rintro t ⟨_, ht⟩
    exact hne ((ht m h1).trans (ht m' h2).symm)
  show mapErr _ _ = _
  simp only [List.zip_cons_cons, List.zip_nil_left, mapErr, hoursAfterMidnight, dayStart_spec hD, localizeShift]
  rw [if_pos ⟨m, h1⟩, h]; rfl

/-- Clocks go back from 01:00 to 00:00 on the first day. -/
example := hour_angle_repeated_midnight (z := fun t => if t < 0 then 3600 else 0) (u := 40000) (D := 0) (m := -3600) (m' := 0)
  ⟨⟨0, by simp⟩, by norm_num, by norm_num⟩ (by norm_num) (by norm_num) (by norm_num) (fin (-106)) (fin (-3.5))

/-- Two time zones give the same hour angle up to a whole number of turns. -/
theorem hour_angle_zones_agree {z z' : Zone} {u D D' : ℝ} (hD : IsLocalDate z u D) (hD' : IsLocalDate z' u D')
    (lon eot : ℝ) : ∃ n : ℤ, trueHourAngle u D lon eot = trueHourAngle u D' lon eot + 360 * n := by
  obtain ⟨⟨n, rfl⟩, -⟩ := hD
  obtain ⟨⟨n', rfl⟩, -⟩ := hD'
  refine ⟨n' - n, ?_⟩
  unfold trueHourAngle; push_cast; ring

example := hour_angle_zones_agree (z := fun _ => -25200) (z' := fun _ => 50400) (u := 60000) (D := 0) (D' := 86400) demo_date
  ⟨⟨1, by simp⟩, by norm_num, by norm_num⟩ (-106) (-3.5)

/-! ## Sunrise, sunset, transit -/

/-- The sunset hour angle exists exactly when the sun crosses the horizon at some hour angle; it is then
between 0° and 180°, the sun is exactly on the horizon at plus and minus that angle and above it exactly
between them. -/
theorem sunset_angle {lat δ : ℝ} (h1 : |lat| < 90) (h2 : |δ| < π / 2) :
    ((∃ H, sunsetAngle (fin lat) (fin δ) = fin H) ↔ ∃ h, sunUp (lat * (π / 180)) δ h = 0) ∧
    ((∀ h, sunUp (lat * (π / 180)) δ h ≠ 0) → sunsetAngle (fin lat) (fin δ) = nan) ∧
    (∀ H, sunsetAngle (fin lat) (fin δ) = fin H → 0 ≤ H ∧ H ≤ 180 ∧
      (∀ s ∈ ({-H, H} : Set ℝ), sunUp (lat * (π / 180)) δ (s * (π / 180)) = 0 ∧
        solarZenithAnalytical (fin (lat * (π / 180))) (fin (s * (π / 180))) (fin δ) = fin (π / 2)) ∧
      ∀ h, |h| ≤ 180 → (0 < sunUp (lat * (π / 180)) δ (h * (π / 180)) ↔ |h| < H)) := by
  have hp := Real.pi_pos
  set φ := lat * (π / 180) with hφ
  have hφ1 : |φ| < π / 2 := by
    rw [hφ, abs_mul, abs_of_pos (by positivity : 0 < π / 180)]
    nlinarith
  have hcφ : 0 < Real.cos φ := Real.cos_pos_of_mem_Ioo ⟨by linarith [(abs_lt.1 hφ1).1], (abs_lt.1 hφ1).2⟩
  have hcδ : 0 < Real.cos δ := Real.cos_pos_of_mem_Ioo ⟨by linarith [(abs_lt.1 h2).1], (abs_lt.1 h2).2⟩
  set k := -(Real.tan δ) * Real.tan φ with hk
  have hup : ∀ h, sunUp φ δ h = Real.cos δ * Real.cos φ * (Real.cos h - k) := by
    intro h
    rw [sunUp_eq, hk, Real.tan_eq_sin_div_cos, Real.tan_eq_sin_div_cos]
    field_simp; ring
  have hA : sunsetAngle (fin lat) (fin δ) = if k < -1 ∨ 1 < k then nan else fin (Real.arccos k * (180 / π)) := by
    simp only [sunsetAngle, Fl.radians, fin_mul, ← hφ, Fl.tan, hcφ.ne', hcδ.ne', if_false, neg_fin, Fl.arccos, ← hk]
    split_ifs <;> simp [Fl.degrees]
  have hzero : ∀ h, sunUp φ δ h = 0 ↔ Real.cos h = k := by
    intro h; rw [hup]
    constructor
    · intro h0
      rcases mul_eq_zero.1 h0 with h3 | h3
      · exact absurd h3 (mul_pos hcδ hcφ).ne'
      · linarith
    · intro h0; rw [h0]; ring
  have hex : (∃ h, sunUp φ δ h = 0) ↔ ¬ (k < -1 ∨ 1 < k) := by
    constructor
    · rintro ⟨h, h0⟩
      rw [hzero] at h0
      rw [← h0]
      rintro (h3 | h3)
      · linarith [Real.neg_one_le_cos h]
      · linarith [Real.cos_le_one h]
    · intro h
      push Not at h
      exact ⟨Real.arccos k, by rw [hzero, Real.cos_arccos h.1 h.2]⟩
  refine ⟨?_, ?_, ?_⟩
  · rw [hex, hA]
    by_cases h : k < -1 ∨ 1 < k
    · simp [h]
    · simp [h]
  · intro h
    have : k < -1 ∨ 1 < k := by
      by_contra h'
      obtain ⟨x, hx⟩ := hex.2 h'
      exact h x hx
    rw [hA, if_pos this]
  · intro H hH
    rw [hA] at hH
    by_cases h : k < -1 ∨ 1 < k
    · simp [h] at hH
    · rw [if_neg h, fin_inj] at hH
      have hk1 := h
      push Not at hk1
      have a0 := Real.arccos_nonneg k
      have a1 := Real.arccos_le_pi k
      have hHr : H * (π / 180) = Real.arccos k := by rw [← hH]; field_simp
      have hcos : Real.cos (H * (π / 180)) = k := by rw [hHr, Real.cos_arccos hk1.1 hk1.2]
      refine ⟨by rw [← hH]; positivity, ?_, ?_, ?_⟩
      · rw [← hH, ← mul_div_assoc, div_le_iff₀ hp]; linarith
      · intro s hs
        have hs0 : sunUp φ δ (s * (π / 180)) = 0 := by
          rw [hzero]
          rcases hs with rfl | hs
          · rw [neg_mul, Real.cos_neg, hcos]
          · rw [Set.mem_singleton_iff.1 hs, hcos]
        exact ⟨hs0, by rw [zenith_fin, hs0, Real.arccos_zero]⟩
      · intro x hx
        rw [hup]
        have hpp := mul_pos hcδ hcφ
        have : 0 < Real.cos δ * Real.cos φ * (Real.cos (x * (π / 180)) - k) ↔ k < Real.cos (x * (π / 180)) := by
          rw [mul_pos_iff_of_pos_left hpp, sub_pos]
        rw [this, ← hcos, ← Real.cos_abs (x * (π / 180)), abs_mul, abs_of_pos (by positivity : 0 < π / 180)]
        have hx2 : |x| * (π / 180) ≤ π := by nlinarith
        have hH1 : H * (π / 180) ≤ π := by rw [hHr]; exact a1
        have hH0 : 0 ≤ H * (π / 180) := by rw [hHr]; exact a0
        have hx0 : 0 ≤ |x| * (π / 180) := by positivity
        rw [Real.strictAntiOn_cos.lt_iff_gt ⟨hH0, hH1⟩ ⟨hx0, hx2⟩]
        constructor
        · intro h'; exact lt_of_mul_lt_mul_right h' (by positivity)
        · intro h'; exact mul_lt_mul_of_pos_right h' (by positivity)

example := sunset_angle (lat := 35) (δ := 0.3) (by norm_num [abs_lt]) (by
  have := Real.pi_gt_three
  rw [abs_of_pos (by norm_num)]; linarith)
theorem demo_sunset : ∃ H, sunsetAngle (fin 35) (fin 0) = fin H :=
  (sunset_angle (lat := 35) (δ := 0) (by norm_num [abs_lt]) (by rw [abs_zero]; positivity)).1.2
    ⟨π / 2, by rw [sunUp_eq]; simp⟩

private theorem localTime_ok {z : Zone} {u D m : ℝ} (hD : IsLocalDate z u D) (hm : OnlyAt z D m) (h : ℝ) :
    localTimeFromHours z u (fin h) = .ok (fin (m + h * 3600)) := by
  rw [localTimeFromHours, dayStart_spec hD, localizeRaise_ok hm]; rfl

private theorem localTime_nan {z : Zone} {u D m : ℝ} (hD : IsLocalDate z u D) (hm : OnlyAt z D m) :
    localTimeFromHours z u nan = .ok nan := by
  rw [localTimeFromHours, dayStart_spec hD, localizeRaise_ok hm]; rfl

private theorem hours_fin (z : Zone) (u a lon eot : ℝ) : hourAngleToHours z u (fin a) (fin lon) (fin eot) =
    fin ((a - lon - eot / 4) / 15 + 12 + z u / 3600) := by
  simp [hourAngleToHours]

private theorem rst_ok {z : Zone} {u D m lat δ H : ℝ} (hD : IsLocalDate z u D) (hm : OnlyAt z D m)
    (lon eot : ℝ) (hH : sunsetAngle (fin lat) (fin δ) = fin H) :
    sunRiseSetTransitGeometric1 z u (fin lat) (fin lon) (fin δ) (fin eot) =
      .ok (fin (m + ((-H - lon - eot / 4) / 15 + 12 + z u / 3600) * 3600),
        fin (m + ((H - lon - eot / 4) / 15 + 12 + z u / 3600) * 3600),
        fin (m + ((0 - lon - eot / 4) / 15 + 12 + z u / 3600) * 3600)) := by
  simp only [sunRiseSetTransitGeometric1, hH, neg_fin, zero_eq, hours_fin, localTime_ok hD hm, Except.bind]

/-- The sun crosses the horizon on the day: the three times returned for a day without a clock change are
the instants at which the hour angle of the local date is minus the sunset angle, the sunset angle and zero;
so the sun is exactly on the horizon at sunrise and sunset, which lie symmetrically about transit, at most 12
hours away. -/
theorem rise_set_transit {z : Zone} {u D m H : ℝ} {lat δ : ℝ} (hD : IsLocalDate z u D) (hm : OnlyAt z D m)
    (hz : z m = z u) (lon eot : ℝ) (h1 : |lat| < 90) (h2 : |δ| < π / 2)
    (hH : sunsetAngle (fin lat) (fin δ) = fin H) :
    ∃ r s t, sunRiseSetTransitGeometric1 z u (fin lat) (fin lon) (fin δ) (fin eot) = .ok (fin r, fin s, fin t) ∧
      trueHourAngle r D lon eot = -H ∧ trueHourAngle s D lon eot = H ∧ trueHourAngle t D lon eot = 0 ∧
      r ≤ t ∧ t ≤ s ∧ t - r = s - t ∧ s - t ≤ 12 * 3600 ∧
      sunUp (lat * (π / 180)) δ (trueHourAngle r D lon eot * (π / 180)) = 0 ∧
      sunUp (lat * (π / 180)) δ (trueHourAngle s D lon eot * (π / 180)) = 0 ∧
      (∀ v, t - 12 * 3600 ≤ v → v ≤ t + 12 * 3600 →
        (0 < sunUp (lat * (π / 180)) δ (trueHourAngle v D lon eot * (π / 180)) ↔ r < v ∧ v < s)) := by
  obtain ⟨-, -, hs⟩ := sunset_angle h1 h2
  obtain ⟨H0, H1, hz0, hab⟩ := hs H hH
  have e := hm.1
  refine ⟨_, _, _, rst_ok hD hm lon eot hH, ?_⟩
  · have tr : ∀ a : ℝ, trueHourAngle (m + ((a - lon - eot / 4) / 15 + 12 + z u / 3600) * 3600) D lon eot = a := by
      intro a; unfold trueHourAngle; rw [← e, hz]; ring
    have tr' := tr
    refine ⟨tr _, tr _, tr _, by nlinarith, by nlinarith, by ring, by nlinarith, ?_, ?_, ?_⟩
    · rw [tr]; exact (hz0 (-H) (by simp)).1
    · rw [tr]; exact (hz0 H (by simp)).1
    · intro v v1 v2
      have hv : trueHourAngle v D lon eot = (v - (m + ((0 - lon - eot / 4) / 15 + 12 + z u / 3600) * 3600)) / 240 := by
        unfold trueHourAngle; rw [← e, hz]; ring
      have hv1 : |trueHourAngle v D lon eot| ≤ 180 := by
        rw [hv, abs_le]; constructor <;> linarith
      rw [hab _ hv1, hv, abs_lt]
      constructor
      · rintro ⟨a, b⟩; constructor <;> linarith
      · rintro ⟨a, b⟩; constructor <;> linarith

example := rise_set_transit demo_date demo_only rfl (-106) (-3.5) (lat := 35) (δ := 0) (by norm_num [abs_lt]) (by rw [abs_zero]; positivity)
  demo_sunset.choose_spec

/-- Polar day or night: sunrise and sunset are NaT, transit is still given. -/
theorem rise_set_polar {z : Zone} {u D m : ℝ} {lat δ : ℝ} (hD : IsLocalDate z u D) (hm : OnlyAt z D m)
    (hz : z m = z u) (lon eot : ℝ) (h1 : |lat| < 90) (h2 : |δ| < π / 2)
    (hn : ∀ h, sunUp (lat * (π / 180)) δ h ≠ 0) :
    ∃ t, sunRiseSetTransitGeometric1 z u (fin lat) (fin lon) (fin δ) (fin eot) = .ok (nan, nan, fin t) ∧
      trueHourAngle t D lon eot = 0 := by
  obtain ⟨-, hs, -⟩ := sunset_angle h1 h2
  have e := hm.1
  refine ⟨m + ((0 - lon - eot / 4) / 15 + 12 + z u / 3600) * 3600, ?_, ?_⟩
  · simp only [sunRiseSetTransitGeometric1, hs hn, neg_nan, zero_eq, hours_fin]
    simp only [hourAngleToHours, nan_sub, nan_div, nan_add, localTime_ok hD hm, localTime_nan hD hm, Except.bind]
  · unfold trueHourAngle; rw [← e, hz]; ring

/-- Midsummer at 80° North. -/
example := rise_set_polar demo_date demo_only rfl 20 (-3.5) (lat := 80) (δ := 0.4) (by norm_num [abs_lt])
  (by have := Real.pi_gt_three
      rw [abs_of_pos (by norm_num)]; linarith)
  (fun h => by
    have hp := Real.pi_gt_three
    have hp4 := Real.pi_lt_four
    have h1 : Real.cos (80 * (π / 180) + 0.4) < 0 :=
      Real.cos_neg_of_pi_div_two_lt_of_lt (by linarith) (by linarith)
    rw [Real.cos_add] at h1
    have hc : 0 ≤ Real.cos 0.4 * Real.cos (80 * (π / 180)) :=
      mul_nonneg (Real.cos_nonneg_of_neg_pi_div_two_le_of_le (by linarith) (by linarith))
        (Real.cos_nonneg_of_neg_pi_div_two_le_of_le (by linarith) (by linarith))
    rw [sunUp_eq]
    nlinarith [Real.neg_one_le_cos h])

/-- At an equinox (zero declination) the day lasts 12 hours at every latitude short of the poles. -/
theorem equinox_day_length {z : Zone} {u D m lat : ℝ} (hD : IsLocalDate z u D) (hm : OnlyAt z D m)
    (lon eot : ℝ) (h1 : |lat| < 90) :
    ∃ r s t, sunRiseSetTransitGeometric1 z u (fin lat) (fin lon) (fin 0) (fin eot) = .ok (fin r, fin s, fin t) ∧
      s - r = 12 * 3600 := by
  have hp := Real.pi_pos
  have hφ1 : |lat * (π / 180)| < π / 2 := by
    rw [abs_mul, abs_of_pos (by positivity : 0 < π / 180)]; nlinarith
  have hcφ : 0 < Real.cos (lat * (π / 180)) :=
    Real.cos_pos_of_mem_Ioo ⟨by linarith [(abs_lt.1 hφ1).1], (abs_lt.1 hφ1).2⟩
  have hH : sunsetAngle (fin lat) (fin 0) = fin 90 := by
    simp only [sunsetAngle, Fl.radians, fin_mul, Fl.tan, hcφ.ne', if_false, Real.cos_zero, one_ne_zero, Real.tan_zero,
      neg_fin, neg_zero, zero_mul, Fl.arccos]
    norm_num [Fl.degrees]

  refine ⟨_, _, _, rst_ok hD hm lon eot hH, ?_⟩
  · ring

example := equinox_day_length demo_date demo_only (-106) (-3.5) (lat := 35) (by norm_num [abs_lt])

/-- On a day with a clock change between midnight and the time given, all three times are off by the change. -/
theorem rise_set_dst_day {z : Zone} {u D m lat δ H : ℝ} (hD : IsLocalDate z u D) (hm : OnlyAt z D m)
    (lon eot : ℝ) (hH : sunsetAngle (fin lat) (fin δ) = fin H) :
    ∃ r s t, sunRiseSetTransitGeometric1 z u (fin lat) (fin lon) (fin δ) (fin eot) = .ok (fin r, fin s, fin t) ∧
      trueHourAngle r D lon eot = -H + 15 * ((z u - z m) / 3600) ∧
      trueHourAngle s D lon eot = H + 15 * ((z u - z m) / 3600) ∧
      trueHourAngle t D lon eot = 15 * ((z u - z m) / 3600) := by
  have e := hm.1
  refine ⟨_, _, _, rst_ok hD hm lon eot hH, ?_, ?_, ?_⟩
  all_goals unfold trueHourAngle; rw [← e]; ring

example := rise_set_dst_day demoSpring_date demoSpring_only (-106) (-3.5) demo_sunset.choose_spec

/-- If local midnight does not exist or is ambiguous the call raises. -/
theorem rise_set_raises {z : Zone} {u D : ℝ} (hD : IsLocalDate z u D) (hm : ∀ m, ¬ OnlyAt z D m)
    (lat lon dec eot : Fl) : sunRiseSetTransitGeometric1 z u lat lon dec eot = .error .valueError := by
  simp only [sunRiseSetTransitGeometric1, localTimeFromHours, dayStart_spec hD, localizeRaise_error hm]
  rfl

/-- Clocks go back from 01:00 to 00:00: midnight is ambiguous. -/
example := rise_set_raises (z := fun t => if t < 0 then 3600 else 0) (u := 40000) (D := 0)
  ⟨⟨0, by simp⟩, by norm_num, by norm_num⟩
  (fun m h => by
    have h1 := h.2 (-3600) (by norm_num)
    have h2 := h.2 0 (by norm_num)
    linarith) (fin 35) (fin (-106)) (fin 0) (fin (-3.5))

/-- The whole index is treated element by element. -/
theorem rise_set_elementwise (z : Zone) (lat lon : Fl) (l : List (ℝ × Fl × Fl)) (g : ℝ × Fl × Fl → Fl × Fl × Fl)
    (h : ∀ p ∈ l, sunRiseSetTransitGeometric1 z p.1 lat lon p.2.1 p.2.2 = .ok (g p)) :
    sunRiseSetTransitGeometric ⟨some z, l.map Prod.fst⟩ lat lon (l.map fun p => p.2.1) (l.map fun p => p.2.2) =
      .ok (l.map g) := by
  have hz : (l.map Prod.fst).zip ((l.map fun p => p.2.1).zip (l.map fun p => p.2.2)) = l := by
    rw [List.zip_map', List.zip_map']; simp
  show mapErr _ _ = _
  rw [hz]
  exact mapErr_ok _ g l h

/-- Round trip: in a zone of constant offset, the hour angle of the transit time is zero (modulo a turn). -/
theorem transit_hour_angle (o lat lon δ eot u : ℝ) (h1 : |lat| < 90) (h2 : |δ| < π / 2) :
    ∃ (r s : Fl) (t : ℝ) (n : ℤ),
      sunRiseSetTransitGeometric1 (fun _ => o) u (fin lat) (fin lon) (fin δ) (fin eot) = .ok (r, s, fin t) ∧
      hourAngle ⟨some fun _ => o, [t]⟩ (fin lon) [fin eot] = .ok [fin (360 * n)] := by
  obtain ⟨D, hD⟩ := localDate_exists (fun _ => o) u
  have main : ∀ t : ℝ, trueHourAngle t D lon eot = 0 →
      ∃ n : ℤ, hourAngle ⟨some fun _ => o, [t]⟩ (fin lon) [fin eot] = .ok [fin (360 * n)] := by
    intro t ht
    obtain ⟨D', hD'⟩ := localDate_exists (fun _ => o) t
    obtain ⟨⟨k, hk⟩, -⟩ := hD
    obtain ⟨⟨k', hk'⟩, -⟩ := id hD'
    refine ⟨k - k', ?_⟩
    rw [hour_angle_ordinary_day hD' (fixed_onlyAt o D') rfl]
    congr 3
    unfold trueHourAngle at ht ⊢
    rw [hk'] ; rw [hk] at ht
    push_cast; linarith
  by_cases hn : ∀ h, sunUp (lat * (π / 180)) δ h ≠ 0
  · obtain ⟨t, h3, h4⟩ := rise_set_polar hD (fixed_onlyAt o D) rfl lon eot h1 h2 hn
    obtain ⟨n, hn⟩ := main t h4
    exact ⟨_, _, t, n, h3, hn⟩
  · push Not at hn
    obtain ⟨H, hH⟩ := (sunset_angle h1 h2).1.2 hn
    obtain ⟨r, s, t, h3, -, -, h4, -⟩ := rise_set_transit hD (fixed_onlyAt o D) rfl lon eot h1 h2 hH
    obtain ⟨n, hn⟩ := main t h4
    exact ⟨_, _, t, n, h3, hn⟩

/-- Witnesses: a zone with a spring-forward change, midnight unique, and a later time that day. -/
example : ∃ (z : Zone) (u m : ℝ), IsLocalDate z u 0 ∧ OnlyAt z 0 m ∧ z u = z m + 3600 := by
  refine ⟨fun t => if t < 7200 then 0 else 3600, 40000, 0, ⟨⟨0, by simp⟩, ?_, ?_⟩, ⟨by norm_num, ?_⟩, by norm_num⟩
  · norm_num
  · norm_num
  · intro u hu
    by_cases h : u < 7200
    · simp only [h, if_true] at hu; linarith
    · simp only [h, if_false] at hu; linarith

/-- … and a zone that skips midnight. -/
example : IsLocalDate (fun t => if t < 0 then 0 else 3600) 40000 0 := by
  refine ⟨⟨0, by simp⟩, ?_, ?_⟩ <;> norm_num

end Pvlib.Props.SolarLocal
end
