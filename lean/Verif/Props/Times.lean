import Verif.Model.Times
import Verif.Props.ToolsMisc

/-! # C171-C174: dates -/

noncomputable section
namespace Pvlib.Props.Times
open Fl Pvlib.Tools Pvlib.SolarPosition Pvlib.Calendar Pvlib.Times

/-! ## Specification -/

/-- Midnight (UTC for localized values, wall clock for naive ones) at the beginning of a date, in seconds since 1970. -/
def midnight (d : Date) : ℝ := 86400 * ((d.ordinal : ℝ) - 719163)

/-- `u` falls on date `d`. -/
def OnDay (d : Date) (u : ℝ) : Prop := d.Valid ∧ midnight d ≤ u ∧ u < midnight d + 86400

/-- Two outcomes per element: every element of `l` gives, alone, the element of `vs` at the same place. -/
def Elementwise {α : Type} (f : α → Except PyErr ExtraOut) (l : List α) (vs : List Fl) : Prop :=
  List.Forall₂ (fun a v => f a = .ok (.scalar v)) l vs

/-! ## Dates of readings -/

theorem dateOf_onDay {d : Date} {u : ℝ} (h : OnDay d u) : dateOf u = d := by
  obtain ⟨hv, h1, h2⟩ := h
  unfold midnight at h1 h2
  have : ⌊u / 86400⌋ = (d.ordinal : ℤ) - 719163 := by
    rw [Int.floor_eq_iff]
    push_cast
    constructor
    · rw [le_div_iff₀ (by norm_num)]; linarith
    · rw [div_lt_iff₀ (by norm_num)]; linarith
  unfold dateOf epochOrdinal
  rw [this]
  have : ((d.ordinal : ℤ) - 719163 + ((719163 : ℕ) : ℤ)).toNat = d.ordinal := by omega
  rw [this, ofOrdinal_ordinal hv]

theorem demo_onDay : OnDay ⟨2024, 2, 29⟩ (1709164800 + 3600) := by
  refine ⟨by decide, ?_⟩
  unfold midnight
  rw [show (⟨2024, 2, 29⟩ : Date).ordinal = 738945 from by decide]
  norm_num

example := dateOf_onDay demo_onDay

/-- Every reading from year 1 on falls on the date that `dateOf` gives. -/
theorem onDay_dateOf {u : ℝ} (h : midnight ⟨1, 1, 1⟩ ≤ u) : OnDay (dateOf u) u := by
  have e : midnight ⟨1, 1, 1⟩ = 86400 * (1 - 719163) := by
    unfold midnight
    rw [show (⟨1, 1, 1⟩ : Date).ordinal = 1 from by decide]
    norm_num
  rw [e] at h
  have hf : (-719162 : ℤ) ≤ ⌊u / 86400⌋ := by
    rw [Int.le_floor]
    push_cast
    rw [le_div_iff₀ (by norm_num)]
    linarith
  set n := ⌊u / 86400⌋ with hn
  have hk : 1 ≤ (n + (epochOrdinal : ℤ)).toNat := by
    unfold epochOrdinal
    omega
  obtain ⟨hv, ho⟩ := ofOrdinal_spec hk
  have ho' : ((dateOf u).ordinal : ℝ) = (n : ℝ) + 719163 := by
    unfold dateOf
    rw [← hn, ho]
    have : ((n + (epochOrdinal : ℤ)).toNat : ℤ) = n + 719163 := by
      unfold epochOrdinal
      omega
    exact_mod_cast this
  refine ⟨hv, ?_⟩
  unfold midnight
  rw [ho']
  have h1 := Int.floor_le (u / 86400)
  have h2 := Int.lt_floor_add_one (u / 86400)
  rw [← hn] at h1 h2
  rw [le_div_iff₀ (by norm_num)] at h1
  rw [div_lt_iff₀ (by norm_num)] at h2
  constructor <;> linarith

example := onDay_dateOf (u := 0) (by
  unfold midnight
  rw [show (⟨1, 1, 1⟩ : Date).ordinal = 1 from by decide]
  norm_num)

theorem readings_utc (z : Option Zone) (l : List ℝ) : readings (pandasToUtc ⟨z, l⟩) = l := by
  have h : wall (fun _ => 0) = id := by funext u; simp [wall]
  cases z <;> simp [readings, pandasToUtc, h]

/-! ## C172: days of year as dates -/

/-- **C172.**  Day of year `j` of a year is midnight of that day of the year: 1 is 1 January. -/
theorem doy_is_midnight (d : Date) (hd : d.Valid) :
    doyToDatetimeindex [fin (d.doy : ℝ)] d.year = .ok ⟨none, [midnight d]⟩ := by
  have h : (d.doy : ℝ) * (86400 * 1000000) = (((d.doy : ℤ) * (86400 * 1000000) : ℤ) : ℝ) := by push_cast; ring
  simp only [doyToDatetimeindex, mapErr, addDays, Except.bind, h, Props.ToolsMisc.aroundReal_int]
  congr 3
  unfold epochOf midnight epochOrdinal Date.ordinal
  push_cast
  ring

example := doy_is_midnight ⟨2024, 2, 29⟩ (by decide +kernel)

/-- **C172.**  Days of year convert element by element, to the nearest microsecond; a NaN or an infinity raises. -/
theorem doy_elementwise (l : List Fl) (y : ℕ) (t : TimeIndex) (h : doyToDatetimeindex l y = .ok t) :
    t.tz = none ∧ List.Forall₂ (fun d u => ∃ x : ℝ, d = fin x ∧
      |u - (86400 * ((yearStart y : ℝ) - 719163 + x))| ≤ 0.0000005) l t.times := by
  unfold doyToDatetimeindex at h
  have key : ∀ (l : List Fl) (us : List ℝ), mapErr (addDays (epochOf y)) l = .ok us →
      List.Forall₂ (fun d u => ∃ x : ℝ, d = fin x ∧
        |u - (86400 * ((yearStart y : ℝ) - 719163 + x))| ≤ 0.0000005) l us := by
    intro l
    induction l with
    | nil => intro us h; cases h; exact .nil
    | cons a as ih =>
      intro us h
      cases a with
      | fin x =>
        simp only [mapErr, addDays, Except.bind] at h
        cases h' : mapErr (addDays (epochOf y)) as with
        | error e => rw [h'] at h; cases h
        | ok r =>
          rw [h'] at h
          cases h
          refine .cons ⟨x, rfl, ?_⟩ (ih r h')
          have := Props.ToolsMisc.aroundReal_spec (x * (86400 * 1000000))
          unfold epochOf epochOrdinal
          rw [abs_le] at this ⊢
          constructor <;> push_cast <;> linarith [this.1, this.2]
      | pinf => cases h
      | ninf => cases h
      | nan => cases h
  cases h' : mapErr (addDays (epochOf y)) l with
  | error e => rw [h'] at h; cases h
  | ok us => rw [h'] at h; cases h; exact ⟨rfl, key l us h'⟩

example := doy_elementwise [fin ((⟨2024, 2, 29⟩ : Date).doy : ℝ)] 2024 _ (doy_is_midnight ⟨2024, 2, 29⟩ (by decide +kernel))

/-- **C172.**  The times are whole microseconds, however the days of year are given: Python's `timedelta` holds no finer times. -/
theorem doy_whole_microseconds (l : List Fl) (y : ℕ) (t : TimeIndex) (h : doyToDatetimeindex l y = .ok t) :
    ∀ u ∈ t.times, ∃ k : ℤ, u * 1000000 = k := by
  unfold doyToDatetimeindex at h
  have key : ∀ (l : List Fl) (us : List ℝ), mapErr (addDays (epochOf y)) l = .ok us → ∀ u ∈ us, ∃ k : ℤ, u * 1000000 = k := by
    intro l
    induction l with
    | nil => intro us h; cases h; simp
    | cons a as ih =>
      intro us h
      cases a with
      | fin x =>
        simp only [mapErr, addDays, Except.bind] at h
        cases h' : mapErr (addDays (epochOf y)) as with
        | error e => rw [h'] at h; cases h
        | ok r =>
          rw [h'] at h
          cases h
          intro u hu
          rcases List.mem_cons.mp hu with rfl | hu
          · refine ⟨86400 * 1000000 * ((yearStart y : ℤ) - (epochOrdinal : ℤ)) + aroundReal (x * (86400 * 1000000)), ?_⟩
            unfold epochOf
            push_cast
            ring
          · exact ih r h' u hu
      | pinf => cases h
      | ninf => cases h
      | nan => cases h
  cases h' : mapErr (addDays (epochOf y)) l with
  | error e => rw [h'] at h; cases h
  | ok us => rw [h'] at h; cases h; exact key l us h'

example := doy_whole_microseconds [fin ((⟨2024, 2, 29⟩ : Date).doy : ℝ)] 2024 _ (doy_is_midnight ⟨2024, 2, 29⟩ (by decide +kernel))

/-- **C172.**  The conversion raises exactly when some day of year is NaN or infinite, and then `ValueError`. -/
theorem doy_raises_iff (l : List Fl) (y : ℕ) (e : PyErr) :
    doyToDatetimeindex l y = .error e ↔ e = .valueError ∧ ∃ d ∈ l, ∀ x : ℝ, d ≠ fin x := by
  have key : ∀ l : List Fl, (∃ us, mapErr (addDays (epochOf y)) l = .ok us ∧ ∀ d ∈ l, ∃ x : ℝ, d = fin x) ∨
      (mapErr (addDays (epochOf y)) l = .error .valueError ∧ ∃ d ∈ l, ∀ x : ℝ, d ≠ fin x) := by
    intro l
    induction l with
    | nil => exact .inl ⟨[], rfl, by simp⟩
    | cons a as ih =>
      cases a with
      | fin x =>
        rcases ih with ⟨us, h, ha⟩ | ⟨h, d, hd, hx⟩
        · refine .inl ⟨_, by simp only [mapErr, addDays, Except.bind, h]; rfl, ?_⟩
          intro d hd
          rcases List.mem_cons.mp hd with rfl | hd
          · exact ⟨x, rfl⟩
          · exact ha d hd
        · exact .inr ⟨by simp only [mapErr, addDays, Except.bind, h], d, List.mem_cons_of_mem _ hd, hx⟩
      | pinf => exact .inr ⟨rfl, _, List.mem_cons_self, by simp⟩
      | ninf => exact .inr ⟨rfl, _, List.mem_cons_self, by simp⟩
      | nan => exact .inr ⟨rfl, _, List.mem_cons_self, by simp⟩
  unfold doyToDatetimeindex
  rcases key l with ⟨us, h, ha⟩ | ⟨h, d, hd, hx⟩
  · rw [h]
    constructor
    · intro h; cases h
    · rintro ⟨-, d, hd, hx⟩
      obtain ⟨x, rfl⟩ := ha d hd
      exact absurd rfl (hx x)
  · rw [h]
    constructor
    · intro h; cases h; exact ⟨rfl, d, hd, hx⟩
    · rintro ⟨rfl, -⟩; rfl

/-- **C172, beyond the year.**  Whole days are counted on past the end of the year: `n` is `n - 1` days after 1 January, so
366 in a common year is 1 January of the next. -/
theorem doy_counts_on (y n : ℕ) (hn : 1 ≤ yearStart y + n) : ∃ d : Date, d.Valid ∧ d.ordinal = yearStart y + n ∧
    doyToDatetimeindex [fin (n : ℝ)] y = .ok ⟨none, [midnight d]⟩ := by
  obtain ⟨hv, ho⟩ := ofOrdinal_spec hn
  refine ⟨_, hv, ho, ?_⟩
  have h : (n : ℝ) * (86400 * 1000000) = (((n : ℤ) * (86400 * 1000000) : ℤ) : ℝ) := by push_cast; ring
  simp only [doyToDatetimeindex, mapErr, addDays, Except.bind, h, Props.ToolsMisc.aroundReal_int]
  congr 3
  unfold epochOf midnight epochOrdinal
  rw [ho]
  push_cast
  ring

example := doy_counts_on 2014 400 (by decide +kernel)

/-- **C172, round trip.**  The day of year of the dates made from days of year of a year is the same days of year. -/
theorem doy_round_trip (y : ℕ) (hy : 1 ≤ y) (l : List ℕ) (hl : ∀ j ∈ l, 1 ≤ j ∧ j ≤ yearDays y) :
    ∃ t, doyToDatetimeindex (l.map fun j : ℕ => fin (j : ℝ)) y = .ok t ∧ pandasToDoy t = l := by
  have key : ∀ l : List ℕ, (∀ j ∈ l, 1 ≤ j ∧ j ≤ yearDays y) → ∃ us : List ℝ,
      mapErr (addDays (epochOf y)) (l.map fun j : ℕ => fin (j : ℝ)) = .ok us ∧ us.map (fun w => (dateOf w).doy) = l := by
    intro l hl
    induction l with
    | nil => exact ⟨[], rfl, rfl⟩
    | cons j js ih =>
      obtain ⟨us, h1, h2⟩ := ih fun k hk => hl k (List.mem_cons_of_mem _ hk)
      obtain ⟨h3, h4⟩ := hl j List.mem_cons_self
      have h : (j : ℝ) * (86400 * 1000000) = (((j : ℤ) * (86400 * 1000000) : ℤ) : ℝ) := by push_cast; ring
      refine ⟨(epochOf y + 86400 * (j : ℝ)) :: us, ?_, ?_⟩
      · simp only [List.map_cons, mapErr, addDays, Except.bind, h1, h, Props.ToolsMisc.aroundReal_int]
        congr 2
        push_cast
        ring
      · rw [List.map_cons, h2]
        congr 1
        obtain ⟨e1, e2⟩ := ofOrdinal_doy hy h3 h4
        obtain ⟨hv, ho⟩ := ofOrdinal_spec (n := yearStart y + j) (by omega)
        rw [dateOf_onDay (d := ofOrdinal (yearStart y + j)) ⟨hv, ?_⟩, e2]
        unfold midnight epochOf epochOrdinal
        rw [ho]
        push_cast
        constructor <;> linarith
  obtain ⟨us, h1, h2⟩ := key l hl
  refine ⟨⟨none, us⟩, by unfold doyToDatetimeindex; rw [h1], ?_⟩
  unfold pandasToDoy
  rw [readings_utc]
  exact h2

example : yearDays 2016 = 366 ∧ yearDays 2014 = 365 ∧ (⟨2016, 3, 1⟩ : Date).doy = 61 ∧ (⟨2014, 3, 1⟩ : Date).doy = 60 := by
  decide

/-! ## C171: `get_extra_radiation` -/

private theorem mapErr_forall {α β : Type} (f : α → Except PyErr β) (g : α → β) (l : List α) (h : ∀ a ∈ l, f a = .ok (g a)) :
    mapErr f l = .ok (l.map g) := by
  induction l with
  | nil => rfl
  | cons a as ih =>
    simp only [mapErr, h a List.mem_cons_self, Except.bind, ih fun b hb => h b (List.mem_cons_of_mem _ hb), List.map_cons]

private theorem doy_value (d sc : Fl) (method : String) (hm : pyLower method = "asce" ∨ pyLower method = "spencer") :
    ∃ v, Irradiance.getExtraRadiation d sc method = .ok v := by
  rcases hm with hm | hm <;> simp [Irradiance.getExtraRadiation, hm]

private theorem dist_value (sc d : Fl) (method : String) (hm : pyLower method = "pyephem" ∨ pyLower method = "nrel") :
    Irradiance.getExtraRadiation 0 sc method d = .ok (sc * (1 / d ^ 2)) := by
  rcases hm with hm | hm <;> simp [Irradiance.getExtraRadiation, hm]

/-- The value for one time argument, as a function of the instant. -/
private def instVal (E : ℝ → Fl) (sc : Fl) (method : String) (u : ℝ) : Except PyErr Fl :=
  if pyLower method = "asce" ∨ pyLower method = "spencer" then
    Irradiance.getExtraRadiation (fin ((dateOf u).doy : ℝ)) sc method
  else if pyLower method = "pyephem" then .ok (sc * (1 / E u ^ 2))
  else if pyLower method = "nrel" then .ok (sc * (1 / Spa.spaRadius (fin u) 67 ^ 2))
  else .error .valueError

private theorem mapErr_map {α β γ : Type} (f : β → Except PyErr γ) (g : α → β) (l : List α) :
    mapErr f (l.map g) = mapErr (fun a => f (g a)) l := by
  induction l with
  | nil => rfl
  | cons a as ih => simp only [List.map_cons, mapErr, ih]

private def Known (m : String) : Prop := m = "asce" ∨ m = "spencer" ∨ m = "pyephem" ∨ m = "nrel"

private theorem times_eq (E : ℝ → Fl) (sc : Fl) (method : String) (y : ℕ) (hm : Known (pyLower method)) (x : TimeArg)
    (z : Option Zone) (l : List ℝ) (hx : x = .index ⟨z, l⟩ ∨ ∃ u, l = [u] ∧ (x = .timestamp z u ∨ x = .datetimeLike z u)) :
    getExtraRadiation E x sc method y =
      match mapErr (instVal E sc method) l with
      | .error e => .error e
      | .ok vs => toOutput x vs := by
  unfold getExtraRadiation
  by_cases h1 : pyLower method = "asce" ∨ pyLower method = "spencer"
  · dsimp only
    rw [if_pos h1]
    have : toDoy x = l.map fun u => fin ((dateOf u).doy : ℝ) := by
      rcases hx with rfl | ⟨u, rfl, rfl | rfl⟩ <;>
      simp [toDoy, pandasToDoy, readings_utc, scalarToIndex]
    rw [this, mapErr_map]
    have : instVal E sc method = fun u => Irradiance.getExtraRadiation (fin ((dateOf u).doy : ℝ)) sc method := by
      funext u; unfold instVal; rw [if_pos h1]
    rw [this]
    cases mapErr (fun u => Irradiance.getExtraRadiation (fin ((dateOf u).doy : ℝ)) sc method) l <;> rfl
  · dsimp only
    rw [if_neg h1]
    have h2 : pyLower method = "pyephem" ∨ pyLower method = "nrel" := by
      rcases hm with h | h | h | h
      · exact absurd (.inl h) h1
      · exact absurd (.inr h) h1
      · exact .inl h
      · exact .inr h
    rw [if_pos h2]
    have ht : toDatetimeIndex x y = .ok ⟨z, l⟩ := by
      rcases hx with rfl | ⟨u, rfl, rfl | rfl⟩ <;> rfl
    rw [ht]
    dsimp only
    rcases h2 with h2 | h2
    · rw [if_pos h2]
      unfold pyephemDistance
      rw [readings_utc, mapErr_map]
      have : instVal E sc method = fun u => Irradiance.getExtraRadiation 0 sc method (E u) := by
        funext u; unfold instVal; rw [if_neg h1, if_pos h2, dist_value _ _ _ (.inl h2)]
      rw [this]
      cases mapErr (fun u => Irradiance.getExtraRadiation 0 sc method (E u)) l <;> rfl
    · have h3 : ¬ pyLower method = "pyephem" := by rw [h2]; decide
      rw [if_neg h3]
      unfold nrelDistance SolarDispatch.datetimeToUnixtime
      rw [mapErr_map, mapErr_map]
      have : instVal E sc method = fun u => Irradiance.getExtraRadiation 0 sc method (Spa.spaRadius (fin (u - 0)) 67) := by
        funext u; unfold instVal; rw [if_neg h1, if_neg h3, if_pos h2, dist_value _ _ _ (.inr h2), sub_zero]
      rw [this]
      cases mapErr (fun u => Irradiance.getExtraRadiation 0 sc method (Spa.spaRadius (fin (u - 0)) 67)) l <;> rfl

private theorem instVal_ok (E : ℝ → Fl) (sc : Fl) (method : String) (hm : Known (pyLower method)) (u : ℝ) :
    ∃ v, instVal E sc method u = .ok v := by
  unfold instVal
  rcases hm with h | h | h | h
  · rw [if_pos (.inl h)]; exact doy_value _ _ _ (.inl h)
  · rw [if_pos (.inr h)]; exact doy_value _ _ _ (.inr h)
  · rw [h]; simp
  · rw [h]; simp

/-- **C171.**  On dates, `get_extra_radiation` is a function of the instant alone: the four kinds of date argument agree,
and so do all time zones; naive dates are read as UTC.  `epoch_year` plays no part. -/
theorem instant_decides (E : ℝ → Fl) (sc : Fl) (method : String)
    (hm : pyLower method ∈ ["asce", "spencer", "pyephem", "nrel"]) (u : ℝ) :
    ∃ v : Fl, ∀ (z : Option Zone) (y : ℕ),
      getExtraRadiation E (.timestamp z u) sc method y = .ok (.scalar v) ∧
      getExtraRadiation E (.datetimeLike z u) sc method y = .ok (.scalar v) ∧
      getExtraRadiation E (.index ⟨z, [u]⟩) sc method y = .ok (.series ⟨z, [u]⟩ [v]) := by
  have hk : Known (pyLower method) := by simpa [Known] using hm
  obtain ⟨v, hv⟩ := instVal_ok E sc method hk u
  refine ⟨v, fun z y => ⟨?_, ?_, ?_⟩⟩
  · rw [times_eq E sc method y hk _ z [u] (.inr ⟨u, rfl, .inl rfl⟩)]
    simp only [mapErr, hv, Except.bind]; rfl
  · rw [times_eq E sc method y hk _ z [u] (.inr ⟨u, rfl, .inr rfl⟩)]
    simp only [mapErr, hv, Except.bind]; rfl
  · rw [times_eq E sc method y hk _ z [u] (.inl rfl)]
    simp only [mapErr, hv, Except.bind]; rfl

example (E : ℝ → Fl) := instant_decides E (fin 1366.1) "NREL" (by decide +kernel) 1577836800

/-- **C171.**  For an index the result is a Series on that index, each value the one for the timestamp alone. -/
theorem index_elementwise (E : ℝ → Fl) (sc : Fl) (method : String)
    (hm : pyLower method ∈ ["asce", "spencer", "pyephem", "nrel"]) (t : TimeIndex) (y : ℕ) :
    ∃ vs, getExtraRadiation E (.index t) sc method y = .ok (.series t vs) ∧
      Elementwise (fun u => getExtraRadiation E (.timestamp t.tz u) sc method y) t.times vs := by
  have hk : Known (pyLower method) := by simpa [Known] using hm
  choose g hg using instVal_ok E sc method hk
  obtain ⟨z, l⟩ := t
  refine ⟨l.map g, ?_, ?_⟩
  · rw [times_eq E sc method y hk _ z l (.inl rfl), mapErr_forall _ g l fun a _ => hg a]; rfl
  · unfold Elementwise
    rw [List.forall₂_map_right_iff, List.forall₂_same]
    intro u _
    dsimp only
    rw [times_eq E sc method y hk _ z [u] (.inr ⟨u, rfl, .inl rfl⟩)]
    simp only [mapErr, hg, Except.bind]; rfl

example (E : ℝ → Fl) := index_elementwise E (fin 1366.1) "asce" (by decide +kernel) ⟨none, [1577836800, 1577923200]⟩ 2014

/-- **C171, day-of-year methods.**  A timestamp gets the value of the UTC day of year it falls on, whatever its time of day and
time zone; a day of year given as a number or in an array gets the same. -/
theorem utc_day_of_year (E : ℝ → Fl) (sc : Fl) (method : String) (hm : pyLower method ∈ ["asce", "spencer"])
    (d : Date) (u : ℝ) (hu : OnDay d u) (z : Option Zone) (y : ℕ) :
    ∃ v, Irradiance.getExtraRadiation (fin (d.doy : ℝ)) sc method = .ok v ∧
      getExtraRadiation E (.timestamp z u) sc method y = .ok (.scalar v) ∧
      getExtraRadiation E (.scalar (fin (d.doy : ℝ))) sc method y = .ok (.scalar v) ∧
      getExtraRadiation E (.array [fin (d.doy : ℝ)]) sc method y = .ok (.array [v]) := by
  have hm' : pyLower method = "asce" ∨ pyLower method = "spencer" := by simpa using hm
  have hk : Known (pyLower method) := by rcases hm' with h | h; exact .inl h; exact .inr (.inl h)
  obtain ⟨v, hv⟩ := doy_value (fin (d.doy : ℝ)) sc method hm'
  refine ⟨v, hv, ?_, ?_, ?_⟩
  · rw [times_eq E sc method y hk _ z [u] (.inr ⟨u, rfl, .inl rfl⟩)]
    have : instVal E sc method u = .ok v := by
      unfold instVal; rw [if_pos hm', dateOf_onDay hu]; exact hv
    simp only [mapErr, this, Except.bind]; rfl
  · unfold getExtraRadiation
    dsimp only
    rw [if_pos hm']
    simp only [toDoy, mapErr, hv, Except.bind]; rfl
  · unfold getExtraRadiation
    dsimp only
    rw [if_pos hm']
    simp only [toDoy, mapErr, hv, Except.bind]; rfl

example : OnDay ⟨2024, 2, 29⟩ (1709164800 + 3600) := by
  refine ⟨by decide, ?_⟩
  unfold midnight
  rw [show (⟨2024, 2, 29⟩ : Date).ordinal = 738945 from by decide]
  norm_num

/-- **C171, all methods.**  The number of a day in `epoch_year` and midnight of that day as a date give the same. -/
theorem doy_is_date (E : ℝ → Fl) (sc : Fl) (method : String)
    (hm : pyLower method ∈ ["asce", "spencer", "pyephem", "nrel"]) (d : Date) (hd : d.Valid) (z : Option Zone) (y : ℕ) :
    getExtraRadiation E (.scalar (fin (d.doy : ℝ))) sc method d.year =
      getExtraRadiation E (.timestamp z (midnight d)) sc method y := by
  have hk : Known (pyLower method) := by simpa [Known] using hm
  by_cases h1 : pyLower method = "asce" ∨ pyLower method = "spencer"
  · obtain ⟨v, -, h2, h3, -⟩ := utc_day_of_year E sc method (by simpa using h1) d (midnight d) ⟨hd, le_refl _, by linarith⟩ z y
    obtain ⟨v', -, h2', h3', -⟩ := utc_day_of_year E sc method (by simpa using h1) d (midnight d) ⟨hd, le_refl _, by linarith⟩ z d.year
    rw [h2, h3']
    obtain ⟨w, hw⟩ := instant_decides E sc method hm (midnight d)
    rw [(hw z y).1] at h2
    rw [(hw z d.year).1] at h2'
    cases h2; cases h2'; rfl
  · obtain ⟨w, hw⟩ := instant_decides E sc method hm (midnight d)
    rw [(hw z y).1, ← (hw none d.year).1]
    have h2 : pyLower method = "pyephem" ∨ pyLower method = "nrel" := by
      rcases hk with h | h | h | h
      · exact absurd (.inl h) h1
      · exact absurd (.inr h) h1
      · exact .inl h
      · exact .inr h
    unfold getExtraRadiation
    dsimp only
    rw [if_neg h1, if_neg h1, if_pos h2, if_pos h2]
    have : toDatetimeIndex (.scalar (fin (d.doy : ℝ))) d.year = .ok ⟨none, [midnight d]⟩ := doy_is_midnight d hd
    rw [this]
    rfl

example (E : ℝ → Fl) := doy_is_date E (fin 1366.1) "spencer" (by decide +kernel) ⟨2020, 2, 29⟩ (by decide +kernel) none 2014

/-- **C171, arrays.**  An array of days of year gives an array, each value the one for the number alone; it raises exactly when
some element alone would. -/
theorem array_elementwise (E : ℝ → Fl) (sc : Fl) (method : String)
    (hm : pyLower method ∈ ["asce", "spencer", "pyephem", "nrel"]) (l : List Fl) (y : ℕ) :
    (∃ vs, getExtraRadiation E (.array l) sc method y = .ok (.array vs) ∧
      Elementwise (fun d => getExtraRadiation E (.scalar d) sc method y) l vs) ∨
    (getExtraRadiation E (.array l) sc method y = .error .valueError ∧
      ∃ d ∈ l, getExtraRadiation E (.scalar d) sc method y = .error .valueError) := by
  have hk : Known (pyLower method) := by simpa [Known] using hm
  by_cases h1 : pyLower method = "asce" ∨ pyLower method = "spencer"
  · left
    choose g hg using fun d => doy_value d sc method h1
    refine ⟨l.map g, ?_, ?_⟩
    · unfold getExtraRadiation
      dsimp only
      rw [if_pos h1]
      simp only [toDoy]
      rw [mapErr_forall _ g l fun a _ => hg a]
      rfl
    · unfold Elementwise
      rw [List.forall₂_map_right_iff, List.forall₂_same]
      intro u _
      dsimp only
      unfold getExtraRadiation
      dsimp only
      rw [if_pos h1]
      simp only [toDoy, mapErr, hg, Except.bind]; rfl
  · have h2 : pyLower method = "pyephem" ∨ pyLower method = "nrel" := by
      rcases hk with h | h | h | h
      · exact absurd (.inl h) h1
      · exact absurd (.inr h) h1
      · exact .inl h
      · exact .inr h
    have one : ∀ d : Fl, (∃ v, getExtraRadiation E (.scalar d) sc method y = .ok (.scalar v) ∧
        ∃ u, addDays (epochOf y) d = .ok u ∧ v = sc * (1 / (if pyLower method = "pyephem" then E u else Spa.spaRadius (fin u) 67) ^ 2)) ∨
        (getExtraRadiation E (.scalar d) sc method y = .error .valueError ∧ addDays (epochOf y) d = .error .valueError) := by
      intro d
      have hd : (∃ u, addDays (epochOf y) d = .ok u) ∨ addDays (epochOf y) d = .error .valueError := by
        cases d with
        | fin x => exact .inl ⟨_, rfl⟩
        | pinf => exact .inr rfl
        | ninf => exact .inr rfl
        | nan => exact .inr rfl
      unfold getExtraRadiation
      dsimp only
      rw [if_neg h1, if_pos h2]
      rcases hd with ⟨u, hu⟩ | hu
      · left
        refine ⟨_, ?_, u, hu, rfl⟩
        simp only [toDatetimeIndex, doyToDatetimeindex, mapErr, hu, Except.bind]
        rcases h2 with h2 | h2
        · simp only [h2, if_true, pyephemDistance, readings_utc, List.map_cons, List.map_nil, mapErr,
            dist_value sc _ method (.inl h2), Except.bind]
          rfl
        · have h3 : ¬ pyLower method = "pyephem" := by rw [h2]; decide
          simp only [if_neg h3, nrelDistance, SolarDispatch.datetimeToUnixtime, List.map_cons, List.map_nil, mapErr,
            dist_value sc _ method (.inr h2), Except.bind, sub_zero]
          rfl
      · right
        refine ⟨?_, hu⟩
        simp only [toDatetimeIndex, doyToDatetimeindex, mapErr, hu, Except.bind]
    have all : (∃ us vs, mapErr (addDays (epochOf y)) l = .ok us ∧
        vs = us.map (fun u => sc * (1 / (if pyLower method = "pyephem" then E u else Spa.spaRadius (fin u) 67) ^ 2)) ∧
        Elementwise (fun d => getExtraRadiation E (.scalar d) sc method y) l vs) ∨
        (mapErr (addDays (epochOf y)) l = .error .valueError ∧
          ∃ d ∈ l, getExtraRadiation E (.scalar d) sc method y = .error .valueError) := by
      induction l with
      | nil => exact .inl ⟨[], [], rfl, rfl, .nil⟩
      | cons a as ih =>
        rcases one a with ⟨v, hv, u, hu, ev⟩ | ⟨he, hu⟩
        · rcases ih with ⟨us, vs, h3, h4, h5⟩ | ⟨h3, d, hd, h4⟩
          · exact .inl ⟨u :: us, v :: vs, by simp only [mapErr, hu, h3, Except.bind], by rw [List.map_cons, ← h4, ev],
              .cons hv h5⟩
          · exact .inr ⟨by simp only [mapErr, hu, h3, Except.bind], d, List.mem_cons_of_mem _ hd, h4⟩
        · exact .inr ⟨by simp only [mapErr, hu, Except.bind], a, List.mem_cons_self, he⟩
    rcases all with ⟨us, vs, h3, h4, h5⟩ | ⟨h3, d, hd, h4⟩
    · left
      refine ⟨vs, ?_, h5⟩
      unfold getExtraRadiation
      dsimp only
      rw [if_neg h1, if_pos h2]
      simp only [toDatetimeIndex, doyToDatetimeindex, h3]
      rcases h2 with h2 | h2
      · simp only [h2, if_true, pyephemDistance, readings_utc] at h4 ⊢
        rw [mapErr_map, mapErr_forall _ _ us fun a _ => dist_value sc (E a) method (.inl h2), h4]
        rfl
      · have h3 : ¬ pyLower method = "pyephem" := by rw [h2]; decide
        simp only [if_neg h3, nrelDistance, SolarDispatch.datetimeToUnixtime] at h4 ⊢
        rw [mapErr_map, mapErr_map, mapErr_forall _ _ us fun a _ => dist_value sc _ method (.inr h2), h4]
        simp only [sub_zero]
        rfl
    · right
      refine ⟨?_, d, hd, h4⟩
      unfold getExtraRadiation
      dsimp only
      rw [if_neg h1, if_pos h2]
      simp only [toDatetimeIndex, doyToDatetimeindex, h3]

example (E : ℝ → Fl) := array_elementwise E (fin 1366.1) "pyephem" (by decide +kernel) [fin 1, nan] 2014

/-- **C171, errors.**  `ValueError` for an unknown method; a NaN or infinite day of year raises with `pyephem` and `nrel` but not
with the day-of-year formulas. -/
theorem scalar_raises_iff (E : ℝ → Fl) (sc : Fl) (method : String) (doy : Fl) (y : ℕ) (e : PyErr) :
    getExtraRadiation E (.scalar doy) sc method y = .error e ↔ e = .valueError ∧
      (pyLower method ∉ ["asce", "spencer", "pyephem", "nrel"] ∨
        (pyLower method ∈ ["pyephem", "nrel"] ∧ ∀ x : ℝ, doy ≠ fin x)) := by
  by_cases hm : pyLower method ∈ ["asce", "spencer", "pyephem", "nrel"]
  · have hk : Known (pyLower method) := by simpa [Known] using hm
    by_cases h1 : pyLower method = "asce" ∨ pyLower method = "spencer"
    · obtain ⟨v, hv⟩ := doy_value doy sc method h1
      have : getExtraRadiation E (.scalar doy) sc method y = .ok (.scalar v) := by
        unfold getExtraRadiation
        dsimp only
        rw [if_pos h1]
        simp only [toDoy, mapErr, hv, Except.bind]; rfl
      rw [this]
      constructor
      · intro h; cases h
      · rintro ⟨-, h | ⟨h, -⟩⟩
        · exact absurd hm h
        · rcases h1 with h1 | h1 <;> rw [h1] at h <;> simp at h
    · have h2 : pyLower method = "pyephem" ∨ pyLower method = "nrel" := by
        rcases hk with h | h | h | h
        · exact absurd (.inl h) h1
        · exact absurd (.inr h) h1
        · exact .inl h
        · exact .inr h
      have h2' : pyLower method ∈ ["pyephem", "nrel"] := by simpa using h2
      have hr := doy_raises_iff [doy] y
      have e1 : getExtraRadiation E (.scalar doy) sc method y =
          match doyToDatetimeindex [doy] y with
          | .error e => .error e
          | .ok times =>
            match mapErr (fun d : Fl => Irradiance.getExtraRadiation 0 sc method d)
              (if pyLower method = "pyephem" then pyephemDistance E times else nrelDistance times) with
            | .error e => .error e
            | .ok l => scalarOut l := by
        unfold getExtraRadiation
        dsimp only
        rw [if_neg h1, if_pos h2]
        rfl
      rw [e1]
      cases doy with
      | fin x =>
        constructor
        · simp only [doyToDatetimeindex, mapErr, addDays, Except.bind]
          have : ∀ (u : ℝ), (if pyLower method = "pyephem" then pyephemDistance E ⟨none, [u]⟩ else nrelDistance ⟨none, [u]⟩) =
              [if pyLower method = "pyephem" then E u else Spa.spaRadius (fin u) 67] := by
            intro u
            split
            · simp [pyephemDistance, readings_utc]
            · simp [nrelDistance, SolarDispatch.datetimeToUnixtime]
          rw [this]
          simp only [mapErr, dist_value _ _ _ h2, Except.bind, scalarOut]
          intro h; cases h
        · rintro ⟨-, h | ⟨-, h⟩⟩
          · exact absurd hm h
          · exact absurd rfl (h x)
      | pinf =>
        have : doyToDatetimeindex [pinf] y = .error .valueError := rfl
        rw [this]
        exact ⟨fun h => by cases h; exact ⟨rfl, .inr ⟨h2', by simp⟩⟩, fun h => by rw [h.1]⟩
      | ninf =>
        have : doyToDatetimeindex [ninf] y = .error .valueError := rfl
        rw [this]
        exact ⟨fun h => by cases h; exact ⟨rfl, .inr ⟨h2', by simp⟩⟩, fun h => by rw [h.1]⟩
      | nan =>
        have : doyToDatetimeindex [nan] y = .error .valueError := rfl
        rw [this]
        exact ⟨fun h => by cases h; exact ⟨rfl, .inr ⟨h2', by simp⟩⟩, fun h => by rw [h.1]⟩
  · have hm' := hm
    simp only [List.mem_cons, List.not_mem_nil, or_false, not_or] at hm'
    have : getExtraRadiation E (.scalar doy) sc method y = .error .valueError := by
      unfold getExtraRadiation
      dsimp only
      rw [if_neg (by rintro (h | h); exact hm'.1 h; exact hm'.2.1 h), if_neg (by rintro (h | h); exact hm'.2.2.1 h; exact hm'.2.2.2 h)]
    rw [this]
    exact ⟨fun h => by cases h; exact ⟨rfl, .inl hm⟩, fun h => by rw [h.1]⟩

example (E : ℝ → Fl) := (scalar_raises_iff E (fin 1366.1) "nrel" nan 2014 .valueError).2 ⟨rfl, Or.inr ⟨by decide +kernel, fun x h => by cases h⟩⟩

/-! ## C173: `localize_to_utc` -/

private theorem offsetBefore_eq {z : Zone} {g o e : ℝ} (he : 0 < e) (h : ∀ u, g - e < u → u < g → z u = o) :
    offsetBefore z g = o := by
  have hex : ∃ o, ∃ e > 0, ∀ u, g - e < u → u < g → z u = o := ⟨o, e, he, h⟩
  unfold offsetBefore
  rw [dif_pos hex]
  obtain ⟨e', he', h'⟩ := hex.choose_spec
  have hm : 0 < min e e' := lt_min he he'
  have h1 := min_le_left e e'
  have h2 := min_le_right e e'
  have a := h (g - min e e' / 2) (by linarith) (by linarith)
  have b := h' (g - min e e' / 2) (by linarith) (by linarith)
  rw [← a, ← b]

/-- **C173.**  Values that carry a time zone keep their instants, whatever zone and whatever location. -/
theorem localized_unchanged (loc z : Zone) (u : ℝ) (l : List ℝ) :
    localizeToUtc loc (.datetime (some z) u) = .ok [u] ∧ localizeToUtc loc (.pandas ⟨some z, l⟩) = .ok l := ⟨rfl, rfl⟩

private theorem fold0_least {z : Zone} {w u : ℝ} (h : wall z u = w) (hl : ∀ u', wall z u' = w → u ≤ u') :
    localizeFold0 z w = u := by
  unfold localizeFold0
  rw [if_pos ⟨u, h⟩]
  exact IsLeast.csInf_eq ⟨h, fun u' h' => hl u' h'⟩

private theorem mapErr_ok_iff {α β : Type} (f : α → Except PyErr β) (l : List α) (r : List β) :
    mapErr f l = .ok r ↔ List.Forall₂ (fun a b => f a = .ok b) l r := by
  induction l generalizing r with
  | nil =>
    constructor
    · intro h; cases h; exact .nil
    · intro h; cases h; rfl
  | cons a as ih =>
    constructor
    · intro h
      simp only [mapErr] at h
      cases h1 : f a with
      | error e => rw [h1] at h; cases h
      | ok b =>
        rw [h1] at h
        cases h2 : mapErr f as with
        | error e => rw [h2] at h; cases h
        | ok bs => rw [h2] at h; cases h; exact .cons h1 ((ih bs).mp h2)
    · intro h
      cases h with
      | cons h1 h2 => simp only [mapErr, h1, (ih _).mpr h2, Except.bind]

private theorem raise_ok_iff (z : Zone) (w u : ℝ) :
    localizeRaise z w = .ok u ↔ wall z u = w ∧ ∀ u', wall z u' = w → u' = u := by
  unfold localizeRaise
  split
  · rename_i h
    constructor
    · intro e
      obtain rfl := Except.ok.inj e
      exact ⟨h.choose_spec.1, h.choose_spec.2⟩
    · rintro ⟨e1, e2⟩
      rw [e2 _ h.choose_spec.1]
  · rename_i h
    constructor
    · intro e; cases e
    · rintro ⟨e1, e2⟩; exact absurd ⟨u, e1, e2⟩ h

/-- **C173.**  A naive `datetime` that local clocks show exactly once becomes that instant; one that they show several
times becomes the first of them. -/
theorem datetime_first_instant (loc : Zone) (w u : ℝ) (h : wall loc u = w) (hl : ∀ u', wall loc u' = w → u ≤ u') :
    localizeToUtc loc (.datetime none w) = .ok [u] := by
  show Except.ok [localizeFold0 loc w] = _
  rw [fold0_least h hl]

/-- **C173.**  A naive `datetime` in a gap (clocks jump at `g` from offset `o₁` to the larger `o₂`) is read with the offset in force
before the gap: after the conversion local clocks show a later time, shifted forward by the length of the gap. -/
theorem datetime_in_gap (loc : Zone) (g o₁ o₂ w e : ℝ) (he : 0 < e) (hb : ∀ u, g - e < u → u < g → loc u = o₁)
    (ha : ∀ u, g ≤ u → u < g + (o₂ - o₁) → loc u = o₂) (h1 : g + o₁ ≤ w) (h2 : w < g + o₂)
    (hpast : ∀ u, u < g → wall loc u < w) (hfut : ∀ u, g ≤ u → w < wall loc u) :
    ∃ u, localizeToUtc loc (.datetime none w) = .ok [u] ∧ u = w - o₁ ∧ wall loc u = w + (o₂ - o₁) := by
  refine ⟨w - o₁, ?_, rfl, ?_⟩
  · unfold localizeToUtc localizeFold0
    have hno : ¬ ∃ u, wall loc u = w := by
      rintro ⟨u, hu⟩
      rcases lt_or_ge u g with h | h
      · exact absurd hu (hpast u h).ne
      · exact absurd hu (hfut u h).ne'
    dsimp only
    rw [if_neg hno]
    have hset : {u | w ≤ wall loc u} = Set.Ici g := by
      ext u
      constructor
      · intro (hu : w ≤ wall loc u)
        by_contra hc
        exact absurd (hpast u (not_le.mp hc)) (not_lt.mpr hu)
      · intro hu
        exact (hfut u hu).le
    rw [hset, csInf_Ici, offsetBefore_eq he hb]
  · unfold wall
    rw [ha (w - o₁) (by linarith) (by linarith)]
    ring

/-- **C173.**  A naive pandas index becomes the instants at which local clocks show its readings, when every reading is shown exactly
once; otherwise `ValueError` (unlike a `datetime`). -/
theorem pandas_unique (loc : Zone) (l us : List ℝ) :
    localizeToUtc loc (.pandas ⟨none, l⟩) = .ok us ↔
      List.Forall₂ (fun w u => wall loc u = w ∧ ∀ u', wall loc u' = w → u' = u) l us := by
  show mapErr (localizeRaise loc) l = .ok us ↔ _
  rw [mapErr_ok_iff]
  have : (fun a b => localizeRaise loc a = .ok b) = (fun w u => wall loc u = w ∧ ∀ u', wall loc u' = w → u' = u) := by
    funext w u
    exact propext (raise_ok_iff loc w u)
  rw [this]

example := (pandas_unique (fun _ => 3600) [7200, 10800] [3600, 7200]).2
  (.cons ⟨by norm_num [wall], fun u h => by unfold wall at h; linarith⟩
    (.cons ⟨by norm_num [wall], fun u h => by unfold wall at h; linarith⟩ .nil))

theorem pandas_raises_iff (loc : Zone) (l : List ℝ) (e : PyErr) :
    localizeToUtc loc (.pandas ⟨none, l⟩) = .error e ↔
      e = .valueError ∧ ∃ w ∈ l, ¬ ∃! u, wall loc u = w := by
  show mapErr (localizeRaise loc) l = .error e ↔ _
  induction l with
  | nil =>
    constructor
    · intro h; cases h
    · rintro ⟨-, w, h, -⟩; cases h
  | cons a as ih =>
    by_cases h : ∃! u, wall loc u = a
    · have : localizeRaise loc a = .ok h.choose := by unfold localizeRaise; rw [dif_pos h]
      simp only [mapErr, this, Except.bind]
      cases h2 : mapErr (localizeRaise loc) as with
      | error e' =>
        rw [h2] at ih
        constructor
        · intro h3
          cases h3
          obtain ⟨h4, w, hw, h5⟩ := ih.mp rfl
          exact ⟨h4, w, List.mem_cons_of_mem _ hw, h5⟩
        · rintro ⟨h4, w, hw, h5⟩
          rcases List.mem_cons.mp hw with rfl | hw
          · exact absurd h h5
          · have := ih.mpr ⟨h4, w, hw, h5⟩
            cases this; rfl
      | ok r =>
        rw [h2] at ih
        constructor
        · intro h3; cases h3
        · rintro ⟨h4, w, hw, h5⟩
          rcases List.mem_cons.mp hw with rfl | hw
          · exact absurd h h5
          · have := ih.mpr ⟨h4, w, hw, h5⟩
            cases this
    · have : localizeRaise loc a = .error .valueError := by unfold localizeRaise; rw [dif_neg h]
      simp only [mapErr, this, Except.bind]
      constructor
      · intro h3; cases h3; exact ⟨rfl, a, List.mem_cons_self, h⟩
      · rintro ⟨rfl, -⟩; rfl

/-- Clocks go forward by an hour at the epoch. -/
private def spring : Zone := fun u => if u < 0 then 3600 else 7200

/-- Clocks go back by an hour at the epoch. -/
private def autumn : Zone := fun u => if u < 0 then 7200 else 3600

example : ∃ u, localizeToUtc spring (.datetime none 5400) = .ok [u] ∧ wall spring u = 9000 := by
  obtain ⟨u, h1, -, h3⟩ := datetime_in_gap spring 0 3600 7200 5400 1 one_pos
    (fun u _ h => if_pos h) (fun u h _ => if_neg (not_lt.mpr h)) (by norm_num) (by norm_num)
    (fun u h => by unfold wall spring; rw [if_pos h]; linarith)
    (fun u h => by unfold wall spring; rw [if_neg (not_lt.mpr h)]; linarith)
  exact ⟨u, h1, by rw [h3]; norm_num⟩

example : localizeToUtc autumn (.datetime none 5400) = .ok [-1800] ∧
    localizeToUtc autumn (.pandas ⟨none, [5400]⟩) = .error .valueError := by
  have a : wall autumn (-1800) = 5400 := by unfold wall autumn; rw [if_pos (by norm_num)]; norm_num
  have b : wall autumn 1800 = 5400 := by unfold wall autumn; rw [if_neg (by norm_num)]; norm_num
  refine ⟨datetime_first_instant _ _ _ a ?_, ?_⟩
  · intro u h
    unfold wall autumn at h
    split at h <;> linarith
  · rw [pandas_raises_iff]
    refine ⟨rfl, 5400, by simp, ?_⟩
    rintro ⟨u, -, hu⟩
    have := (hu _ a).trans (hu _ b).symm
    norm_num at this

/-! ## C174: `calc_time` -/

/-- The UTC microseconds a `datetime` stands for in `calc_time`: naive values are read as UTC. -/
def utcOf : PyDatetime → ℤ
  | .naive w => w
  | .aware u _ => u

/-- Days since 1899-12-31 12:00 UTC. -/
def djd (us : ℤ) : ℝ := ((us : ℝ) - 59926564800000000) / 86400000000

/-- What scipy documents of `brentq(f, a, b, xtol=xtol)`: `ValueError` unless `f` has opposite signs (or a zero) at the ends;
for continuous `f`, a value between the ends that is close to a root between them. -/
def IsBrentq (brentq : (ℝ → ℝ) → ℝ → ℝ → ℝ → Except PyErr ℝ) : Prop := ∀ f a b xtol, 0 < xtol →
  (0 < f a * f b → brentq f a b xtol = .error .valueError) ∧
  (f a * f b ≤ 0 → ContinuousOn f (Set.uIcc a b) → ∃ r x, brentq f a b xtol = .ok r ∧ r ∈ Set.uIcc a b ∧ x ∈ Set.uIcc a b ∧
    f x = 0 ∧ |r - x| ≤ xtol + 8.881784197001252e-16 * |x|)

/-- There is such a function. -/
theorem brentq_exists : ∃ brentq, IsBrentq brentq := by
  classical
  refine ⟨fun f a b _ => if h : ∃ x ∈ Set.uIcc a b, f x = 0 then (if 0 < f a * f b then .error .valueError else .ok h.choose)
    else .error .valueError, ?_⟩
  intro f a b xtol hx
  constructor
  · intro h
    dsimp only
    split <;> rfl
  · intro h hc
    have hex : ∃ x ∈ Set.uIcc a b, f x = 0 := by
      have h0 : (0 : ℝ) ∈ Set.uIcc (f a) (f b) := by
        rw [Set.mem_uIcc]
        rcases le_total (f a) 0 with h1 | h1
        · by_cases h2 : 0 ≤ f b
          · exact .inl ⟨h1, h2⟩
          · have h2 := not_le.mp h2
            have h3 : f a = 0 := by
              by_contra h4
              have := mul_pos_of_neg_of_neg (lt_of_le_of_ne h1 h4) h2
              linarith
            exact .inr ⟨h2.le, h3.ge⟩
        · by_cases h2 : f b ≤ 0
          · exact .inr ⟨h2, h1⟩
          · have h2 := not_le.mp h2
            have h3 : f a = 0 := by
              by_contra h4
              have := mul_pos (lt_of_le_of_ne h1 (Ne.symm h4)) h2
              linarith
            exact .inl ⟨h3.le, h2.le⟩
      obtain ⟨x, hx1, hx2⟩ := intermediate_value_uIcc hc h0
      exact ⟨x, hx1, hx2⟩
    refine ⟨hex.choose, hex.choose, ?_, hex.choose_spec.1, hex.choose_spec.1, hex.choose_spec.2, ?_⟩
    · dsimp only
      rw [dif_pos hex, if_neg (not_lt.mpr h)]
    · rw [sub_self, abs_zero]
      have := abs_nonneg hex.choose
      nlinarith

private theorem toDjd (t : PyDatetime) : datetimeToDjd t = djd (utcOf t) := by
  have : (59926564800000000 : ℝ) = ((djdStart : ℤ) : ℝ) := by unfold djdStart; norm_num
  unfold djd
  rw [this]
  cases t <;> (simp only [datetimeToDjd, utcOf]; push_cast; ring)

private theorem around_between {x : ℝ} {a b : ℤ} (h1 : (a : ℝ) ≤ x) (h2 : x ≤ b) : a ≤ aroundReal x ∧ aroundReal x ≤ b := by
  have h := abs_le.mp (Props.ToolsMisc.aroundReal_spec x)
  constructor
  · have : ((a - 1 : ℤ) : ℝ) < (aroundReal x : ℝ) := by push_cast; linarith [h.1]
    have := Int.cast_lt.mp this
    omega
  · have : (aroundReal x : ℝ) < ((b + 1 : ℤ) : ℝ) := by push_cast; linarith [h.2]
    have := Int.cast_lt.mp this
    omega

/-- **C174.**  If the attribute is on different sides of the value at the two bounds (or equal to it at one) the result is a UTC time
between the bounds, both included and in either order, and within `xtol` days (plus `8.9e-16` times the Dublin Julian day and half
a microsecond) of a time between the bounds at which the attribute has the value. -/
theorem calc_time_crossing {brentq : (ℝ → ℝ) → ℝ → ℝ → ℝ → Except PyErr ℝ} (hb : IsBrentq brentq)
    (sun : String → Option (ℝ → ℝ)) (lower upper : PyDatetime) (attr : String) (f : ℝ → ℝ) (value xtol : ℝ) (hx : 0 < xtol)
    (hf : sun attr = some f) (hc : ContinuousOn f (Set.uIcc (djd (utcOf lower)) (djd (utcOf upper))))
    (hs : (f (djd (utcOf lower)) - value) * (f (djd (utcOf upper)) - value) ≤ 0) :
    ∃ us : ℤ, calcTime brentq sun lower upper attr value xtol = .ok (.aware us "UTC") ∧
      min (utcOf lower) (utcOf upper) ≤ us ∧ us ≤ max (utcOf lower) (utcOf upper) ∧
      ∃ x ∈ Set.uIcc (djd (utcOf lower)) (djd (utcOf upper)), f x = value ∧
        |djd us - x| ≤ xtol + 8.881784197001252e-16 * |x| + 0.0000005 / 86400 := by
  obtain ⟨r, x, h1, h2, h3, h4, h5⟩ := (hb (fun t => f t - value) _ _ xtol hx).2 hs (hc.sub continuousOn_const)
  have hdj : (59926564800000000 : ℤ) = djdStart := by unfold djdStart; norm_num
  have hsp := abs_le.mp (Props.ToolsMisc.aroundReal_spec (r * (24 * 3600 * 1000000)))
  refine ⟨djdStart + aroundReal (r * (24 * 3600 * 1000000)), ?_, ?_⟩
  · unfold calcTime
    rw [hf]
    dsimp only
    rw [toDjd, toDjd, h1]
    rfl
  · have hr : (((min (utcOf lower) (utcOf upper) - djdStart : ℤ)) : ℝ) ≤ r * (24 * 3600 * 1000000) ∧
        r * (24 * 3600 * 1000000) ≤ ((max (utcOf lower) (utcOf upper) - djdStart : ℤ) : ℝ) := by
      rw [← hdj]
      unfold djd at h2
      rw [Set.mem_uIcc] at h2
      push_cast
      rcases h2 with ⟨a, b⟩ | ⟨a, b⟩
      · rw [div_le_iff₀ (by norm_num)] at a
        rw [le_div_iff₀ (by norm_num)] at b
        have := min_le_left ((utcOf lower : ℤ) : ℝ) (utcOf upper)
        have := le_max_right ((utcOf lower : ℤ) : ℝ) (utcOf upper)
        constructor <;> linarith
      · rw [div_le_iff₀ (by norm_num)] at a
        rw [le_div_iff₀ (by norm_num)] at b
        have := min_le_right ((utcOf lower : ℤ) : ℝ) (utcOf upper)
        have := le_max_left ((utcOf lower : ℤ) : ℝ) (utcOf upper)
        constructor <;> linarith
    obtain ⟨b1, b2⟩ := around_between hr.1 hr.2
    refine ⟨by omega, by omega, x, h3, by linarith, ?_⟩
    have : |djd (djdStart + aroundReal (r * (24 * 3600 * 1000000))) - r| ≤ 0.0000005 / 86400 := by
      unfold djd
      rw [← hdj]
      push_cast
      rw [abs_le]
      constructor
      · rw [neg_le_sub_iff_le_add, ← sub_le_iff_le_add, le_div_iff₀ (by norm_num)]
        linarith [hsp.1]
      · rw [sub_le_iff_le_add, div_le_iff₀ (by norm_num)]
        linarith [hsp.2]
    refine (abs_sub_le _ r x).trans ((add_le_add this h5).trans (le_of_eq ?_))
    ring

/-- A body that rises linearly and crosses the value within the hour. -/
example {brentq : (ℝ → ℝ) → ℝ → ℝ → ℝ → Except PyErr ℝ} (hb : IsBrentq brentq) :=
  calc_time_crossing hb (fun a => if a = "alt" then some (fun x => x) else none) (.naive 63700000000000000) (.aware 63700003600000000 "Asia/Tokyo")
    "alt" (fun x => x) ((63700001800000000 - 59926564800000000) / 86400000000) 1e-10
    (by norm_num) (by simp) continuousOn_id (by simp only [utcOf, djd]; norm_num)

/-- **C174.**  `ValueError` if the attribute is strictly on the same side of the value at both bounds; `AttributeError` for an
attribute the sun does not have; naive bounds mean the same as the same readings in UTC, and the zones of the bounds do not matter. -/
theorem calc_time_errors {brentq : (ℝ → ℝ) → ℝ → ℝ → ℝ → Except PyErr ℝ} (hb : IsBrentq brentq)
    (sun : String → Option (ℝ → ℝ)) (lower upper : PyDatetime) (attr : String) (value xtol : ℝ) (hx : 0 < xtol) :
    (sun attr = none → calcTime brentq sun lower upper attr value xtol = .error .attributeError) ∧
    (∀ f, sun attr = some f → 0 < (f (djd (utcOf lower)) - value) * (f (djd (utcOf upper)) - value) →
      calcTime brentq sun lower upper attr value xtol = .error .valueError) := by
  constructor
  · intro h
    unfold calcTime
    rw [h]
  · intro f hf h
    unfold calcTime
    rw [hf]
    dsimp only
    rw [toDjd, toDjd, (hb (fun t => f t - value) _ _ xtol hx).1 h]

example {brentq : (ℝ → ℝ) → ℝ → ℝ → ℝ → Except PyErr ℝ} (hb : IsBrentq brentq) (lower upper : PyDatetime) :=
  (calc_time_errors hb (fun a => if a = "alt" then some (fun _ => 1) else none) lower upper "alt" 0 1e-10 (by norm_num)).2 (fun _ => 1)
    (by simp) (by norm_num)

theorem calc_time_zones (brentq : (ℝ → ℝ) → ℝ → ℝ → ℝ → Except PyErr ℝ)
    (sun : String → Option (ℝ → ℝ)) (lower upper lower' upper' : PyDatetime) (attr : String) (value xtol : ℝ)
    (h1 : utcOf lower = utcOf lower') (h2 : utcOf upper = utcOf upper') :
    calcTime brentq sun lower upper attr value xtol = calcTime brentq sun lower' upper' attr value xtol := by
  unfold calcTime
  simp only [toDjd, h1, h2]

example (brentq : (ℝ → ℝ) → ℝ → ℝ → ℝ → Except PyErr ℝ) (sun : String → Option (ℝ → ℝ)) :=
  calc_time_zones brentq sun (.aware 63700000000000000 "Asia/Tokyo") (.naive 63700003600000000) (.naive 63700000000000000)
    (.aware 63700003600000000 "UTC") "alt" 0 1e-10 rfl rfl

end Pvlib.Props.Times
end
