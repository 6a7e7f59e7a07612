import Verif.Props.SolarLocal
import Verif.Model.SolarDispatch

/-! # Property C213: longitudes a whole turn apart are one place -/

noncomputable section
open scoped Classical
open Real
namespace Pvlib.Props.Longitude
open Fl Pvlib.SolarPosition Pvlib.Spa Pvlib.SolarDispatch Pvlib.Props.SolarLocal

/-- Two longitudes describe the same meridian. -/
def SameMeridian (l l' : ℝ) : Prop := ∃ k : ℤ, l' = l + 360 * k

theorem demo_meridian : SameMeridian (-105) 255 := ⟨1, by norm_num⟩

/-- The remainder after whole turns does not see whole turns. -/
private theorem mod_turn (a m : ℝ) (k : ℤ) (hm : m ≠ 0) : Fl.mod (fin (a + m * k)) (fin m) = Fl.mod (fin a) (fin m) := by
  rw [mod_fin hm, mod_fin hm]
  congr 1
  have : (a + m * k) / m = a / m + k := by field_simp
  rw [this, Int.floor_add_intCast]
  push_cast
  ring

private theorem hourAngle_turn {l l' : ℝ} (h : SameMeridian l l') (v a : Fl) :
    Fl.mod (v + fin l' - a) 360 = Fl.mod (v + fin l - a) 360 := by
  obtain ⟨k, rfl⟩ := h
  cases v <;> cases a <;> try rfl
  rename_i v a
  have e : v + (l + 360 * (k : ℝ)) - a = (v + l - a) + 360 * k := by ring
  show Fl.mod (fin (v + (l + 360 * k) - a)) (fin 360) = Fl.mod (fin (v + l - a)) (fin 360)
  rw [e, mod_turn _ _ _ (by norm_num)]

/-- **C213**: the solar position algorithm gives the same position (and equation of time) at every time, missing and
infinite times and conditions included. -/
theorem spa_turn {l l' : ℝ} (h : SameMeridian l l') (lat elev pressure temp refract u dT : Fl) :
    spaFull ⟨lat, fin l', elev, pressure, temp, refract⟩ u dT = spaFull ⟨lat, fin l, elev, pressure, temp, refract⟩ u dT := by
  have e : localHourAngle (spaGeo u dT).v (fin l') (spaGeo u dT).alpha =
      localHourAngle (spaGeo u dT).v (fin l) (spaGeo u dT).alpha := hourAngle_turn h _ _
  unfold spaFull spaTopo
  dsimp only
  rw [e]

private theorem locAST_turn {l l' : ℝ} (h : SameMeridian l l') (t : UtcTime) : locAST t (fin l') = locAST t (fin l) := by
  obtain ⟨k, rfl⟩ := h
  unfold locAST
  cases gmst t <;> try rfl
  rename_i g
  have e : 360 + g - -1 * (l + 360 * (k : ℝ)) = (360 + g - -1 * l) + 360 * k := by ring
  show Fl.mod (fin (360 + g - -1 * (l + 360 * k))) (fin 360) = Fl.mod (fin (360 + g - -1 * l)) (fin 360)
  rw [e, mod_turn _ _ _ (by norm_num)]

/-- **C213**: so does the ephemeris method. -/
theorem ephemeris_turn {l l' : ℝ} (h : SameMeridian l l') (fuel : ℕ) (times : List UtcTime) (lat p t : Fl) :
    ephemeris fuel times lat (fin l') p t = ephemeris fuel times lat (fin l) p t := by
  have e : ∀ u a, ephemFinish u lat (fin l') p t a = ephemFinish u lat (fin l) p t a := by
    intro u a
    unfold ephemFinish
    dsimp only
    rw [locAST_turn h]
  unfold ephemeris
  simp only [e]

private theorem cells_turn {l l' : ℝ} (h : SameMeridian l l') (mode : Mode) (lat elev pressure temp refract u dT : Fl) :
    cells mode ⟨lat, fin l', elev, pressure, temp, refract⟩ u dT = cells mode ⟨lat, fin l, elev, pressure, temp, refract⟩ u dT := by
  cases mode
  · unfold cells; dsimp only; rw [spa_turn h]
  · rfl
  · rfl

private theorem loop_turn {l l' : ℝ} (h : SameMeridian l l') (mode : Mode) (lat elev pressure temp refract : Fl)
    (chunk : List (Fl × Fl)) : ∀ off, loopWrites mode ⟨lat, fin l', elev, pressure, temp, refract⟩ off chunk =
      loopWrites mode ⟨lat, fin l, elev, pressure, temp, refract⟩ off chunk := by
  induction chunk with
  | nil => intro _; rfl
  | cons p rest ih =>
    intro off
    unfold loopWrites
    rw [ih]
    unfold passWrites
    rw [cells_turn h]

private theorem runs_turn {l l' : ℝ} (h : SameMeridian l l') (useNumba : Bool) (mode : Mode)
    (lat elev pressure temp refract : Fl) (ut : List (Fl × Fl)) (n : ℤ) :
    solarPositionRuns useNumba mode ⟨lat, fin l', elev, pressure, temp, refract⟩ ut n =
      solarPositionRuns useNumba mode ⟨lat, fin l, elev, pressure, temp, refract⟩ ut n := by
  have e1 : threads mode ⟨lat, fin l', elev, pressure, temp, refract⟩ ut n =
      threads mode ⟨lat, fin l, elev, pressure, temp, refract⟩ ut n := by
    unfold threads
    simp only [loop_turn h]
  have e2 : solarPositionNumpy mode ⟨lat, fin l', elev, pressure, temp, refract⟩ ut =
      solarPositionNumpy mode ⟨lat, fin l, elev, pressure, temp, refract⟩ ut := by
    unfold solarPositionNumpy
    simp only [cells_turn h]
  unfold solarPositionRuns
  rw [e1, e2]

/-- **C213**: `get_solarposition` returns the same frames for longitudes a whole turn apart, with each of the methods that
pvlib computes itself ('nrel_numpy', 'nrel_numba', 'ephemeris', and any unknown name, which raises), whatever the
time zone, altitude, pressure, temperature, delta_t, number of threads and state of the numba switch. -/
theorem position_turn {l l' : ℝ} (h : SameMeridian l l') (numba : Numba) (lib : Libraries) (cal : Calendar) (t : TimeIndex)
    (lat : Fl) (altitude pressure : Option Fl) (method : String) (temperature : Fl) (kw : SpaKw) (s : SpaState)
    (hm : pyLower method ∉ ["nrel_c", "pyephem"]) :
    getSolarposition numba lib cal t lat (fin l') altitude pressure method temperature kw s =
      getSolarposition numba lib cal t lat (fin l) altitude pressure method temperature kw s := by
  simp only [List.mem_cons, List.not_mem_nil, or_false, not_or] at hm
  have e : ∀ how, spaPython numba cal how t ⟨lat, fin l', (altPres altitude pressure).1, (altPres altitude pressure).2, temperature⟩ kw s =
      spaPython numba cal how t ⟨lat, fin l, (altPres altitude pressure).1, (altPres altitude pressure).2, temperature⟩ kw s := by
    intro how
    unfold spaPython spaLoc
    dsimp only
    simp only [runs_turn h]
  unfold getSolarposition
  dsimp only
  rw [if_neg hm.1, if_neg hm.1]
  simp only [e, if_neg hm.2, ephemeris_turn h]

example (numba : Numba) (lib : Libraries) (cal : Calendar) (t : TimeIndex) (s : SpaState) :=
  position_turn demo_meridian numba lib cal t (fin 40) none none "nrel_numpy" (fin 12) {} s (by decide +kernel)

/-- **C213**: sunrise, sunset and transit of the solar position algorithm are the same. -/
theorem rise_set_spa_turn {l l' : ℝ} (h : SameMeridian l l') (numba : Numba) (cal : Calendar) (t : TimeIndex) (lat : Fl)
    (how : String) (delta_t : Option Fl) (s : SpaState) :
    sunRiseSetTransitSpa numba cal t lat (fin l') how delta_t s = sunRiseSetTransitSpa numba cal t lat (fin l) how delta_t s := by
  have e0 : ∀ a v : Fl, Fl.mod ((a - fin l' - v) / 360) 1 = Fl.mod ((a - fin l - v) / 360) 1 := by
    obtain ⟨k, rfl⟩ := h
    intro a v
    cases a <;> cases v <;> try rfl
    rename_i a v
    have e : (a - (l + 360 * (k : ℝ)) - v) / 360 = (a - l - v) / 360 + 1 * ((-k : ℤ) : ℝ) := by push_cast; ring
    show Fl.mod (fin (a - (l + 360 * k) - v) / fin 360) (fin 1) = Fl.mod (fin (a - l - v) / fin 360) (fin 1)
    rw [fin_div (by norm_num), fin_div (by norm_num), e, mod_turn _ _ _ (by norm_num)]
  have e1 : ∀ d v s0 sn sp m, atFraction lat (fin l') d v s0 sn sp m = atFraction lat (fin l) d v s0 sn sp m := by
    intro d v s0 sn sp m
    unfold atFraction
    dsimp only
    simp only [hourAngle_turn h]
  have e2 : ∀ d u, transitSunriseSunset1 spaSst lat (fin l') d u = transitSunriseSunset1 spaSst lat (fin l) d u := by
    intro d u
    unfold transitSunriseSunset1
    dsimp only
    simp only [e0, e1]
  unfold sunRiseSetTransitSpa transitSunriseSunset
  simp only [e2]

/-- **C213**: `hour_angle` differs by exactly the whole turns, so cosine and sine of it are the same, … -/
theorem hour_angle_turn (k : ℤ) (l : ℝ) (z : Zone) (u : ℝ) (hrs : ℝ) (hh : hoursAfterMidnight z u = .ok hrs) (eot : ℝ) :
    ∃ a, hourAngle ⟨some z, [u]⟩ (fin l) [fin eot] = .ok [fin a] ∧
      hourAngle ⟨some z, [u]⟩ (fin (l + 360 * k)) [fin eot] = .ok [fin (a + 360 * k)] := by
  refine ⟨15 * (hrs - z u / 3600 - 12) + l + eot / 4, ?_, ?_⟩
  · simp only [hourAngle, List.zip_cons_cons, List.zip_nil_right, mapErr, hh, Except.bind, ofNat_eq, fin_sub, fin_mul, fin_add]
    rw [fin_div (by norm_num), fin_add]
  · simp only [hourAngle, List.zip_cons_cons, List.zip_nil_right, mapErr, hh, Except.bind, ofNat_eq, fin_sub, fin_mul, fin_add]
    rw [fin_div (by norm_num), fin_add]
    congr 3
    ring

example : ∃ a, hourAngle ⟨some fun _ => -25200, [60000]⟩ (fin (-105)) [fin 3] = .ok [fin a] ∧
    hourAngle ⟨some fun _ => -25200, [60000]⟩ (fin (-105 + 360 * ((1 : ℤ) : ℝ))) [fin 3] = .ok [fin (a + 360 * ((1 : ℤ) : ℝ))] := by
  obtain ⟨hrs, hh⟩ : ∃ hrs, hoursAfterMidnight (fun _ => -25200) 60000 = .ok hrs := by
    unfold hoursAfterMidnight
    rw [dayStart_spec demo_date, localizeShift_ok demo_only]
    exact ⟨_, rfl⟩
  exact hour_angle_turn 1 (-105) _ 60000 hrs hh 3

/-- … and the analytical zenith does not change. -/
theorem zenith_turn (k : ℤ) (φ a δ : ℝ) :
    solarZenithAnalytical (fin φ) (Fl.radians (fin (a + 360 * k))) (fin δ) =
      solarZenithAnalytical (fin φ) (Fl.radians (fin a)) (fin δ) := by
  have e : (a + 360 * k) * (π / 180) = a * (π / 180) + k * (2 * π) := by ring
  have hr : ∀ x : ℝ, Fl.radians (fin x) = fin (x * (π / 180)) := fun x => rfl
  rw [hr, hr, e]
  simp only [solarZenithAnalytical, Fl.cos, Real.cos_add_int_mul_two_pi]

/-- **C213** (a limit of the code, kept visible): `sun_rise_set_transit_geometric` does see whole turns: given the longitude
255 instead of -105 it answers with the events of the day before (one day per turn). -/
theorem rise_set_geometric_turn (k : ℤ) (l : ℝ) {z : Zone} {u D m : ℝ} (hD : IsLocalDate z u D) (hm : OnlyAt z D m)
    (lat δ eot H : ℝ) (hH : sunsetAngle (fin lat) (fin δ) = fin H) :
    ∃ r s t, sunRiseSetTransitGeometric1 z u (fin lat) (fin l) (fin δ) (fin eot) = .ok (fin r, fin s, fin t) ∧
      sunRiseSetTransitGeometric1 z u (fin lat) (fin (l + 360 * k)) (fin δ) (fin eot) =
        .ok (fin (r - 86400 * k), fin (s - 86400 * k), fin (t - 86400 * k)) := by
  have hours : ∀ a l', hourAngleToHours z u (fin a) (fin l') (fin eot) = fin ((a - l' - eot / 4) / 15 + 12 + z u / 3600) := by
    intro a l'
    simp only [hourAngleToHours, ofNat_eq, fin_div (show (4 : ℝ) ≠ 0 by norm_num), fin_div (show (15 : ℝ) ≠ 0 by norm_num), fin_sub,
      fin_add]
  have times : ∀ h, localTimeFromHours z u (fin h) = .ok (fin (m + h * 3600)) := by
    intro h
    unfold localTimeFromHours
    rw [dayStart_spec hD, localizeRaise_ok hm]
    rfl
  refine ⟨m + ((-H - l - eot / 4) / 15 + 12 + z u / 3600) * 3600, m + ((H - l - eot / 4) / 15 + 12 + z u / 3600) * 3600,
    m + ((0 - l - eot / 4) / 15 + 12 + z u / 3600) * 3600, ?_, ?_⟩
  · unfold sunRiseSetTransitGeometric1
    simp only [hH, neg_fin, zero_eq, hours, times, Except.bind]
  · unfold sunRiseSetTransitGeometric1
    simp only [hH, neg_fin, zero_eq, hours, times, Except.bind]
    have e : ∀ a : ℝ, m + ((a - (l + 360 * (k : ℝ)) - eot / 4) / 15 + 12 + z u / 3600) * 3600 =
        m + ((a - l - eot / 4) / 15 + 12 + z u / 3600) * 3600 - 86400 * k := fun a => by ring
    rw [e, e, e]

example := rise_set_geometric_turn 1 (-105) demo_date demo_only 35 0 3 _ demo_sunset.choose_spec

end Pvlib.Props.Longitude
end
