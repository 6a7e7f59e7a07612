import Verif.Model.LocationMethods
import Verif.Props.Location
import Verif.Props.Times
import Verif.Props.Clearsky
import Verif.Props.Linke
import Verif.Props.Decomposition
import Verif.Props.Atmosphere

/-! # C175-C177: `Location`: construction, solar position, clear sky -/

noncomputable section
open scoped Classical
namespace Pvlib.Props.LocationMethods
open Fl Pvlib.Tools Pvlib.Location Pvlib.SolarPosition Pvlib.SolarDispatch Pvlib.Spec

/-! ## C175: construction -/

/-- **C175.**  A `Location` keeps the coordinates, the altitude and the name it is given, and its `tz` is the name its setter stored. -/
theorem init_keeps (db : String → Prop) (raster : ℤ → ℤ → Fin 256) (lat lon a : Fl) (tz : TzArg) (name : Option String)
    (zone : String) (h : setTz db tz none = (some zone, .ok ())) :
    init db raster lat lon tz (some a) name = .ok ⟨lat, lon, zone, a, name⟩ := by
  unfold init; rw [h]

example (raster : ℤ → ℤ → Fin 256) := init_keeps (fun z => z = "Asia/Tokyo") raster (fin 35.7) (fin 139.7) (fin 40) (.str "Asia/Tokyo")
  (some "Tokyo") "Asia/Tokyo" (by simp [setTz])

/-- **C175.**  Without an altitude the tabulated one is used; a look-up error is passed on. -/
theorem init_altitude (db : String → Prop) (raster : ℤ → ℤ → Fin 256) (lat lon : Fl) (tz : TzArg) (name : Option String)
    (zone : String) (h : setTz db tz none = (some zone, .ok ())) :
    init db raster lat lon tz none name = (lookupAltitude raster lat lon).map fun a => ⟨lat, lon, zone, a, name⟩ := by
  unfold init; rw [h]
  cases lookupAltitude raster lat lon <;> rfl

example (raster : ℤ → ℤ → Fin 256) := init_altitude (fun z => z = "Asia/Tokyo") raster (fin 35.7) (fin 139.7) (.str "Asia/Tokyo")
  (some "Tokyo") "Asia/Tokyo" (by simp [setTz])

/-- **C175.**  An unacceptable time zone raises, whatever the other arguments (the altitude is not looked up). -/
theorem init_bad_tz (db : String → Prop) (raster : ℤ → ℤ → Fin 256) (lat lon : Fl) (tz : TzArg) (a : Option Fl)
    (name : Option String) (e : PyErr) (h : (setTz db tz none).2 = .error e) : init db raster lat lon tz a name = .error e := by
  unfold init
  rcases h' : setTz db tz none with ⟨s, r⟩
  rw [h'] at h
  dsimp only at h
  subst h
  rfl

example (raster : ℤ → ℤ → Fin 256) := init_bad_tz (fun z => z = "Asia/Tokyo") raster (fin 35.7) (fin 139.7) (.str "Tokyo") none none
  (.keyError "Tokyo") (by simp [setTz])

/-- A metadata dictionary with these entries (and possibly others). -/
structure HasMeta (d : PyDict MetaVal) (lat lon : Fl) (tz : ℤ) (alt : Fl) : Prop where
  latitude : d.get? "latitude" = some (.float lat)
  longitude : d.get? "longitude" = some (.float lon)
  tz : d.get? "TZ" = some (.float (fin tz))
  altitude : d.get? "altitude" = some (.float alt)

private theorem get_of {d : PyDict MetaVal} {k : String} {v : MetaVal} (h : d.get? k = some v) : need d k = .ok v := by
  unfold need; rw [h]

/-- **C175, TMY.**  With the metadata of `read_tmy2` (`City`) or `read_tmy3` (`Name`) the location has the file's coordinates, its name and
altitude, and the fixed-offset zone `Etc/GMT±h` whose clocks are `TZ` hours ahead of UTC; the data, if given, become `weather`. -/
theorem from_tmy {δ : Type} (db : String → Prop) (hdb : Props.Location.HasEtc db) (raster : ℤ → ℤ → Fin 256) (d : PyDict MetaVal)
    (lat lon alt : Fl) (tz : ℤ) (h : HasMeta d lat lon tz alt) (h1 : -12 ≤ tz) (h2 : tz ≤ 14) (name : String)
    (hn : (name ≠ "" ∧ d.get? "City" = some (.str name)) ∨
      (d.get? "Name" = some (.str name) ∧ (d.get? "City" = none ∨ d.get? "City" = some (.str "") ∨ d.get? "City" = some (.int 0) ∨
        d.get? "City" = some (.float 0))))
    (data : Option δ) :
    ∃ zone, (zone, tz) ∈ Props.Location.etcOffset ∧
      fromTmy db raster d data [] = .ok (⟨lat, lon, zone, alt, some name⟩, data, data) := by
  obtain ⟨zone, e1, e2, -⟩ := Props.Location.setTz_int db hdb none tz h1 h2
  rw [← Props.Location.setTz_float_whole] at e1
  refine ⟨zone, e2, ?_⟩
  unfold fromTmy
  have key : need d (if ∃ v, d.get? "City" = some v ∧ v.truthy then "City" else "Name") = .ok (.str name) := by
    rcases hn with ⟨hne, hc⟩ | ⟨hn, hc⟩
    · rw [if_pos ⟨_, hc, hne⟩]; exact get_of hc
    · rw [if_neg]
      · exact get_of hn
      · rintro ⟨v, hv, ht⟩
        rcases hc with hc | hc | hc | hc <;> rw [hc] at hv <;> cases hv <;> exact ht rfl
  dsimp only
  rw [get_of h.latitude, get_of h.longitude, get_of h.tz, get_of h.altitude, key]
  have := init_keeps db raster lat lon alt (.float (fin tz)) (some name) zone e1
  simp only [Except.bind, construct, ne_eq, not_true_eq_false, if_false, MetaVal.num, MetaVal.tz, MetaVal.text, this]

/-- Metadata of a TMY file. -/
def demoMeta : PyDict MetaVal := [("latitude", .float 35), ("longitude", .float (-106)), ("Name", .str "ALBUQUERQUE"),
  ("TZ", .float (fin ((-7 : ℤ) : ℝ))), ("altitude", .float 1600)]
theorem demoMeta_has : HasMeta demoMeta 35 (-106) (-7) 1600 := by
  constructor <;> simp [demoMeta, PyDict.get?]

example (raster : ℤ → ℤ → Fin 256) := from_tmy (fun _ => True) (fun _ _ => trivial) raster demoMeta 35 (-106) 1600 (-7) demoMeta_has
  (by norm_num) (by norm_num) "ALBUQUERQUE" (Or.inr ⟨by simp [demoMeta, PyDict.get?], Or.inl (by simp [demoMeta, PyDict.get?])⟩) (some ())

/-- A city that is a number other than zero (not a name, listed here as `none`) still takes precedence over `Name`, which is not needed. -/
theorem from_tmy_numbered {δ : Type} (db : String → Prop) (hdb : Props.Location.HasEtc db) (raster : ℤ → ℤ → Fin 256) (d : PyDict MetaVal)
    (lat lon alt : Fl) (tz : ℤ) (h : HasMeta d lat lon tz alt) (h1 : -12 ≤ tz) (h2 : tz ≤ 14)
    (hc : (∃ n : ℤ, n ≠ 0 ∧ d.get? "City" = some (.int n)) ∨ ∃ x : Fl, x ≠ 0 ∧ d.get? "City" = some (.float x)) (data : Option δ) :
    ∃ zone, (zone, tz) ∈ Props.Location.etcOffset ∧
      fromTmy db raster d data [] = .ok (⟨lat, lon, zone, alt, none⟩, data, data) := by
  obtain ⟨zone, e1, e2, -⟩ := Props.Location.setTz_int db hdb none tz h1 h2
  rw [← Props.Location.setTz_float_whole] at e1
  refine ⟨zone, e2, ?_⟩
  unfold fromTmy
  have := init_keeps db raster lat lon alt (.float (fin tz)) none zone e1
  rcases hc with ⟨n, hn, hc⟩ | ⟨n, hn, hc⟩ <;>
  · have key : (if ∃ v, d.get? "City" = some v ∧ v.truthy then "City" else "Name") = "City" := if_pos ⟨_, hc, hn⟩
    dsimp only
    rw [get_of h.latitude, get_of h.longitude, get_of h.tz, get_of h.altitude, key, get_of hc]
    simp only [Except.bind, construct, ne_eq, not_true_eq_false, if_false, MetaVal.num, MetaVal.tz, MetaVal.text, this]

example (raster : ℤ → ℤ → Fin 256) := from_tmy_numbered (fun _ => True) (fun _ _ => trivial) raster (("City", .int 1) :: demoMeta) 35 (-106) 1600 (-7)
  (by constructor <;> simp [demoMeta, PyDict.get?]) (by norm_num) (by norm_num) (Or.inl ⟨1, by norm_num, by simp [PyDict.get?]⟩) (some ())

/-- **C175, EPW.**  As for TMY, with the name from `city`. -/
theorem from_epw {δ : Type} (db : String → Prop) (hdb : Props.Location.HasEtc db) (raster : ℤ → ℤ → Fin 256) (d : PyDict MetaVal)
    (lat lon alt : Fl) (tz : ℤ) (h : HasMeta d lat lon tz alt) (h1 : -12 ≤ tz) (h2 : tz ≤ 14) (name : String)
    (hn : d.get? "city" = some (.str name)) (data : Option δ) :
    ∃ zone, (zone, tz) ∈ Props.Location.etcOffset ∧
      fromEpw db raster d data [] = .ok (⟨lat, lon, zone, alt, some name⟩, data) := by
  obtain ⟨zone, e1, e2, -⟩ := Props.Location.setTz_int db hdb none tz h1 h2
  rw [← Props.Location.setTz_float_whole] at e1
  refine ⟨zone, e2, ?_⟩
  unfold fromEpw
  rw [get_of h.latitude, get_of h.longitude, get_of h.tz, get_of h.altitude, get_of hn]
  have := init_keeps db raster lat lon alt (.float (fin tz)) (some name) zone e1
  simp only [Except.bind, construct, ne_eq, not_true_eq_false, if_false, MetaVal.num, MetaVal.tz, MetaVal.text, this]

example (raster : ℤ → ℤ → Fin 256) := from_epw (fun _ => True) (fun _ _ => trivial) raster (("city", .str "Tokyo") :: demoMeta) 35 (-106) 1600 (-7)
  (by constructor <;> simp [demoMeta, PyDict.get?]) (by norm_num) (by norm_num) "Tokyo" (by simp [PyDict.get?]) (some ())

private theorem bind_ok {α β : Type} {x : Except PyErr α} {f : α → Except PyErr β} {r : β} (h : x.bind f = .ok r) :
    ∃ a, x = .ok a ∧ f a = .ok r := by
  cases x with
  | error e => cases h
  | ok a => exact ⟨a, rfl, h⟩

private theorem need_ok {d : PyDict MetaVal} {k : String} {v : MetaVal} (h : need d k = .ok v) : d.get? k = some v := by
  unfold need at h
  split at h
  · cases h; assumption
  · cases h

/-- **C175, finding.**  Files from places whose clocks are not whole hours ahead of UTC (India, 5.5) are refused: neither constructor
returns, and with all the other entries present the error is `TypeError`. -/
theorem fractional_tz {δ : Type} (db : String → Prop) (raster : ℤ → ℤ → Fin 256) (d : PyDict MetaVal) (data : Option δ) (x : Fl)
    (hx : ∀ n : ℤ, x ≠ fin n) (ht : d.get? "TZ" = some (.float x)) :
    (∀ kw r, fromEpw db raster d data kw ≠ .ok r) ∧ (∀ kw r, fromTmy db raster d data kw ≠ .ok r) ∧
    ((∀ k ∈ ["latitude", "longitude", "city", "altitude"], d.get? k ≠ none) →
      fromEpw db raster d data [] = .error .typeError) := by
  have b := Props.Location.setTz_float_bad db none x hx
  have i : ∀ lat lon a n, init db raster lat lon (.float x) a n = .error .typeError := fun lat lon a n =>
    init_bad_tz db raster lat lon _ a n _ (by rw [b])
  refine ⟨fun kw r h => ?_, fun kw r h => ?_, fun hk => ?_⟩
  · unfold fromEpw at h
    obtain ⟨v1, -, h⟩ := bind_ok h
    obtain ⟨v2, -, h⟩ := bind_ok h
    obtain ⟨v3, -, h⟩ := bind_ok h
    obtain ⟨v4, h4, h⟩ := bind_ok h
    obtain ⟨v5, -, h⟩ := bind_ok h
    obtain ⟨o, h, -⟩ := bind_ok h
    obtain rfl := Option.some.inj ((need_ok h4).symm.trans ht)
    simp only [construct, MetaVal.tz, i] at h
    split at h <;> cases h
  · unfold fromTmy at h
    obtain ⟨v1, -, h⟩ := bind_ok h
    obtain ⟨v2, -, h⟩ := bind_ok h
    obtain ⟨v3, -, h⟩ := bind_ok h
    obtain ⟨v4, h4, h⟩ := bind_ok h
    obtain ⟨v5, -, h⟩ := bind_ok h
    obtain ⟨o, h, -⟩ := bind_ok h
    obtain rfl := Option.some.inj ((need_ok h4).symm.trans ht)
    simp only [construct, MetaVal.tz, i] at h
    split at h <;> cases h
  · have g : ∀ k ∈ ["latitude", "longitude", "city", "altitude"], ∃ v, need d k = .ok v := by
      intro k hm
      cases hv : d.get? k with
      | none => exact absurd hv (hk k hm)
      | some v => exact ⟨v, get_of hv⟩
    obtain ⟨v1, e1⟩ := g "latitude" (by simp)
    obtain ⟨v2, e2⟩ := g "longitude" (by simp)
    obtain ⟨v3, e3⟩ := g "city" (by simp)
    obtain ⟨v4, e4⟩ := g "altitude" (by simp)
    unfold fromEpw
    rw [e1, e2, e3, e4, get_of ht]
    simp only [Except.bind, construct, ne_eq, not_true_eq_false, if_false, MetaVal.tz, i]

/-- India, 5.5 h ahead of UTC. -/
example (raster : ℤ → ℤ → Fin 256) := fractional_tz (fun _ => True) raster [("city", .str "Delhi"), ("latitude", .float 28.6),
  ("longitude", .float 77.2), ("TZ", .float (fin 5.5)), ("altitude", .float 216)] (some ()) (fin 5.5)
  (fun n h => by
    rw [fin_inj] at h
    have : (n : ℝ) * 2 = 11 := by rw [← h]; norm_num
    have : n * 2 = 11 := by exact_mod_cast this
    omega) (by simp [PyDict.get?])

/-- **C175, finding.**  The documented keyword arguments of both constructors cannot be used: any keyword raises. -/
theorem keywords_never {δ : Type} (db : String → Prop) (raster : ℤ → ℤ → Fin 256) (d : PyDict MetaVal) (data : Option δ)
    (kw : List String) (hk : kw ≠ []) :
    (∀ r, fromEpw db raster d data kw ≠ .ok r) ∧ (∀ r, fromTmy db raster d data kw ≠ .ok r) := by
  refine ⟨fun r h => ?_, fun r h => ?_⟩
  · unfold fromEpw at h
    obtain ⟨v1, -, h⟩ := bind_ok h
    obtain ⟨v2, -, h⟩ := bind_ok h
    obtain ⟨v3, -, h⟩ := bind_ok h
    obtain ⟨v4, h4, h⟩ := bind_ok h
    obtain ⟨v5, -, h⟩ := bind_ok h
    obtain ⟨o, h, -⟩ := bind_ok h
    rw [construct, if_pos hk] at h
    cases h
  · unfold fromTmy at h
    obtain ⟨v1, -, h⟩ := bind_ok h
    obtain ⟨v2, -, h⟩ := bind_ok h
    obtain ⟨v3, -, h⟩ := bind_ok h
    obtain ⟨v4, h4, h⟩ := bind_ok h
    obtain ⟨v5, -, h⟩ := bind_ok h
    obtain ⟨o, h, -⟩ := bind_ok h
    rw [construct, if_pos hk] at h
    cases h

example : HasMeta [("latitude", .float 35), ("longitude", .float (-106)), ("Name", .str "ALBUQUERQUE"), ("TZ", .float (fin ((-7 : ℤ) : ℝ))),
    ("altitude", .float 1600)] 35 (-106) (-7) 1600 := by
  constructor <;> simp [PyDict.get?]

/-! ## C176: solar position and events -/

/-- **C176.**  `Location.get_solarposition` is `solarposition.get_solarposition` with the coordinates and the altitude of the location:
without a pressure, that function's own default from the altitude; with one, that pressure. -/
theorem solarposition_delegates (loc : Loc) (numba : Numba) (lib : Libraries) (cal : Calendar) (t : TimeIndex) (p : Option Fl)
    (T : Fl) (method : String) (kw : SpaKw) (s : SpaState) :
    Location.getSolarposition loc numba lib cal t p T method kw s =
      SolarDispatch.getSolarposition numba lib cal t loc.latitude loc.longitude (some loc.altitude) p method T kw s := by
  cases p <;> rfl

/-- **C176.**  `get_sun_rise_set_transit` refuses naive times, whatever the method, with `ValueError`, and so any unknown method. -/
theorem rise_set_refuses (loc : Loc) (ev : Fl → Fl → EphemEvents) (numba : Numba) (cal : Calendar) (t : TimeIndex)
    (method : String) (kw : RiseKw) (s : SpaState) (h : t.tz = none ∨ method ∉ ["pyephem", "spa", "geometric"]) :
    getSunRiseSetTransit loc ev numba cal t method kw s = (.error .valueError, s) := by
  unfold getSunRiseSetTransit
  by_cases h1 : method = "pyephem"
  · subst h1
    rcases h with h | h
    · simp only [if_true, sunRiseSetTransitEphem, h, Except.map]
    · simp at h
  rw [if_neg h1]
  by_cases h2 : method = "spa"
  · subst h2
    rcases h with h | h
    · simp only [if_true, sunRiseSetTransitSpa, h]
    · simp at h
  rw [if_neg h2]
  by_cases h3 : method = "geometric"
  · subst h3
    rcases h with h | h
    · simp only [if_true, sunRiseSetTransitGeometric, h]
    · simp at h
  rw [if_neg h3]

example (loc : Loc) (ev : Fl → Fl → EphemEvents) (cal : Calendar) (s : SpaState) :=
  rise_set_refuses loc ev .missing cal ⟨none, [0]⟩ "spa" {} s (Or.inl rfl)

/-- **C176.**  Each method name selects that implementation, at the coordinates of the location. -/
theorem rise_set_delegates (loc : Loc) (ev : Fl → Fl → EphemEvents) (numba : Numba) (cal : Calendar) (t : TimeIndex)
    (kw : RiseKw) (s : SpaState) :
    getSunRiseSetTransit loc ev numba cal t "spa" kw s =
      sunRiseSetTransitSpa numba cal t loc.latitude loc.longitude kw.how kw.delta_t s ∧
    (getSunRiseSetTransit loc ev numba cal t "geometric" kw s).1 =
      sunRiseSetTransitGeometric t loc.latitude loc.longitude kw.declination kw.equation_of_time ∧
    (∀ l, sunRiseSetTransitEphem (ev loc.latitude loc.longitude) t kw.next_or_previous = .ok l →
      (getSunRiseSetTransit loc ev numba cal t "pyephem" kw s).1 =
        .ok (l.map fun p : ℝ × ℝ × ℝ => (fin p.1, fin p.2.1, fin p.2.2))) := by
  refine ⟨rfl, rfl, fun l h => ?_⟩
  unfold getSunRiseSetTransit
  rw [if_pos rfl, h]
  rfl

/-! ## C177: clear sky -/

private theorem get_none_of {d : PyDict KwVal} {k : String} (h : ∀ p ∈ d, p.1 ≠ k) : d.get? k = none := by
  induction d with
  | nil => rfl
  | cons p ps ih =>
    obtain ⟨a, v⟩ := p
    rw [PyDict.get?, if_neg (h (a, v) List.mem_cons_self)]
    exact ih fun q hq => h q (List.mem_cons_of_mem _ hq)

private theorem popped_mem {d : PyDict KwVal} {k : String} {p : String × KwVal} : p ∈ popped d k ↔ p ∈ d ∧ p.1 ≠ k := by
  unfold popped
  rw [List.mem_filter]
  simp

private theorem get_popped_self (d : PyDict KwVal) (k : String) : (popped d k).get? k = none :=
  get_none_of fun _ hp => (popped_mem.mp hp).2

private theorem get_popped_ne (d : PyDict KwVal) {k j : String} (h : j ≠ k) : (popped d k).get? j = d.get? j := by
  induction d with
  | nil => rfl
  | cons p ps ih =>
    obtain ⟨a, v⟩ := p
    unfold popped at ih ⊢
    by_cases hp : a = k
    · have h2 : ¬ a = j := fun e => h (e.symm.trans hp)
      rw [List.filter_cons_of_neg (by simpa using hp), ih]
      conv_rhs => rw [PyDict.get?, if_neg h2]
    · rw [List.filter_cons_of_pos (by simpa using hp)]
      rw [PyDict.get?, ih]
      conv_rhs => rw [PyDict.get?]

private theorem popped_idem (d : PyDict KwVal) (k : String) : popped (popped d k) k = popped d k := by
  unfold popped
  rw [List.filter_filter]
  congr 1
  funext p
  simp

/-- **C177.**  A given solar position is used as it is: nothing is computed from times and location instead. -/
theorem given_position (loc : Loc) (grid : ℤ → ℤ → List ℝ) (E : ℝ → Fl) (solpos solpos' : KwVal → Except PyErr (List Row))
    (t : TimeIndex) (model : String) (sp : List Row) (x : Option (List Fl)) (kw : PyDict KwVal) :
    getClearsky loc grid E solpos t model (some sp) x kw = getClearsky loc grid E solpos' t model (some sp) x kw := rfl

/-- **C177.**  A solar position that is not given is computed with the keyword `pressure`, or else the standard pressure at the
altitude. -/
theorem computed_position (loc : Loc) (grid : ℤ → ℤ → List ℝ) (E : ℝ → Fl) (solpos : KwVal → Except PyErr (List Row))
    (t : TimeIndex) (model : String) (x : Option (List Fl)) (kw : PyDict KwVal) (sp : List Row)
    (h : solpos ((kw.get? "pressure").getD (.values (List.replicate t.times.length (Atmosphere.alt2pres loc.altitude)))) = .ok sp) :
    getClearsky loc grid E solpos t model none x kw = getClearsky loc grid E solpos t model (some sp) x kw := by
  unfold getClearsky
  cases hk : kw.get? "pressure" with
  | none => rw [hk, Option.getD_none] at h; simp only [h]
  | some p => rw [hk, Option.getD_some] at h; simp only [h]

/-- A location. -/
def demoLoc : Loc := ⟨fin 35, fin (-106), "Etc/GMT+7", fin 1600, none⟩
/-- A row of solar positions: the sun at 40° from the zenith. -/
def demoRow : Row := ⟨fin 40, fin 40, fin 50, fin 50, fin 180, []⟩

example (grid : ℤ → ℤ → List ℝ) (E : ℝ → Fl) := computed_position demoLoc grid E (fun _ => .ok [demoRow]) ⟨none, [0]⟩ "ineichen" none []
  [demoRow] rfl

/-- **C177, finding.**  With a given solar position the keyword `pressure` changes nothing except for `simplified_solis`: the absolute
airmass of the Ineichen model is computed from the altitude. -/
theorem pressure_ignored (loc : Loc) (grid : ℤ → ℤ → List ℝ) (E : ℝ → Fl) (solpos : KwVal → Except PyErr (List Row))
    (t : TimeIndex) (model : String) (hm : model ≠ "simplified_solis") (sp : List Row) (x : Option (List Fl)) (kw : PyDict KwVal) :
    getClearsky loc grid E solpos t model (some sp) x kw =
      getClearsky loc grid E solpos t model (some sp) x (kw.filter fun p => p.1 ≠ "pressure") := by
  show _ = getClearsky loc grid E solpos t model (some sp) x (popped kw "pressure")
  unfold getClearsky
  cases extraOf E t x with
  | error e => rfl
  | ok l =>
    simp only [Except.bind, popped_idem]
    by_cases h1 : model = "ineichen"
    · simp only [h1, if_true]
    · by_cases h2 : model = "haurwitz"
      · simp only [h2, if_true, if_neg (show ¬ ("haurwitz" = "ineichen") by decide)]
      · simp only [if_neg h1, if_neg h2, if_neg hm]

example (grid : ℤ → ℤ → List ℝ) (E : ℝ → Fl) (sp : KwVal → Except PyErr (List Row)) := pressure_ignored demoLoc grid E sp ⟨none, [0]⟩ "ineichen"
  (by decide) [demoRow] none [("pressure", .values [fin 85000])]

/-- **C177.**  Turbidity and absolute airmass given as keywords are used as they are: neither the turbidity file nor the airmass model
matters, and each row is the Ineichen model of the given values. -/
theorem ineichen_given (loc : Loc) (grid : ℤ → ℤ → List ℝ) (E : ℝ → Fl) (solpos : KwVal → Except PyErr (List Row))
    (t : TimeIndex) (sp : List Row) (tl am x : List Fl) (hs : sp.length = t.times.length) (ht : tl.length = t.times.length)
    (ha : am.length = t.times.length) (hx : x.length = t.times.length) :
    ∃ rows, getClearsky loc grid E solpos t "ineichen" (some sp) (some x)
        [("linke_turbidity", .values tl), ("airmass_absolute", .values am)] = .ok rows ∧ rows.length = t.times.length ∧
      ∀ (i : ℕ) (hi : i < t.times.length), rows[i]? = some (ofIrr (Clearsky.ineichen (sp[i]'(by omega)).apparent_zenith
        (am[i]'(by omega)) (tl[i]'(by omega)) loc.altitude (x[i]'(by omega)) false)) := by
  refine ⟨(List.range t.times.length).map fun i => ofIrr (Clearsky.ineichen ((sp.map Row.apparent_zenith).getD i nan)
    (am.getD i nan) (tl.getD i nan) loc.altitude (x.getD i nan) false), ?_, by simp, ?_⟩
  · have e1 : popped [("linke_turbidity", KwVal.values tl), ("airmass_absolute", .values am)] "pressure" =
        [("linke_turbidity", KwVal.values tl), ("airmass_absolute", .values am)] := rfl
    have e2 : popped [("linke_turbidity", KwVal.values tl), ("airmass_absolute", .values am)] "linke_turbidity" =
        [("airmass_absolute", KwVal.values am)] := rfl
    have e3 : popped [("airmass_absolute", KwVal.values am)] "airmass_absolute" = [] := rfl
    have g1 : PyDict.get? [("linke_turbidity", KwVal.values tl), ("airmass_absolute", .values am)] "linke_turbidity" =
        some (.values tl) := rfl
    have g2 : PyDict.get? [("airmass_absolute", KwVal.values am)] "airmass_absolute" = some (.values am) := rfl
    have g3 : PyDict.get? ([] : PyDict KwVal) "perez_enhancement" = none := rfl
    have n1 : ∀ l : List Fl, l.length = t.times.length → ∀ i, (((List.range t.times.length).map (KwVal.values l).at).getD i nan) = l.getD i nan := by
      intro l hl i
      rw [List.getD_eq_getElem?_getD, List.getElem?_map]
      by_cases hi : i < t.times.length
      · rw [List.getElem?_range hi]; rfl
      · rw [List.getElem?_eq_none (by simpa using hi), List.getD_eq_getElem?_getD, List.getElem?_eq_none (by omega)]; rfl
    unfold getClearsky
    simp only [extraOf, Except.bind, e1, g1, given, e2, g2, e3, g3, if_true, List.not_mem_nil, false_and, exists_false, if_false,
      n1 tl ht, n1 am ha]
  · intro i hi
    rw [List.getElem?_map, List.getElem?_range hi, Option.map_some]
    simp only [List.getD_eq_getElem?_getD, List.getElem?_map, List.getElem?_eq_getElem (show i < sp.length by omega),
      List.getElem?_eq_getElem (show i < am.length by omega), List.getElem?_eq_getElem (show i < tl.length by omega),
      List.getElem?_eq_getElem (show i < x.length by omega), Option.map_some, Option.getD_some]

example (grid : ℤ → ℤ → List ℝ) (E : ℝ → Fl) (sp : KwVal → Except PyErr (List Row)) := ineichen_given demoLoc grid E sp ⟨none, [0]⟩ [demoRow]
  [fin 3] [fin 1.2] [fin 1367] rfl rfl rfl rfl

/-- **C177, finding.**  `haurwitz` ignores every keyword, also unknown ones, and `dni_extra`; it yields `ghi` only. -/
theorem haurwitz_ignores (loc : Loc) (grid : ℤ → ℤ → List ℝ) (E : ℝ → Fl) (solpos : KwVal → Except PyErr (List Row))
    (t : TimeIndex) (sp : List Row) (x : Option (List Fl)) (kw : PyDict KwVal) (hl : sp.length = t.times.length) :
    getClearsky loc grid E solpos t "haurwitz" (some sp) x kw =
      .ok (sp.map fun r => ⟨Clearsky.haurwitz r.apparent_zenith, none⟩) := by
  have hx : ∃ l, extraOf E t x = .ok l := by
    cases x with
    | some l => exact ⟨l, rfl⟩
    | none =>
      obtain ⟨vs, h, -⟩ := Times.index_elementwise E (1366.1) "spencer" (by decide) t 2014
      exact ⟨vs, by simp only [extraOf, h]⟩
  obtain ⟨l, hx⟩ := hx
  unfold getClearsky
  simp only [hx, Except.bind]
  rw [if_neg (by decide), if_pos trivial]
  congr 1
  apply List.ext_getElem
  · simp [hl]
  · intro i h1 h2
    simp only [List.length_map] at h2
    simp [h2]

example (grid : ℤ → ℤ → List ℝ) (E : ℝ → Fl) (sp : KwVal → Except PyErr (List Row)) := haurwitz_ignores demoLoc grid E sp ⟨none, [0]⟩ [demoRow]
  none [] rfl

/-- **C177.**  `simplified_solis` with the aerosol depth, precipitable water and pressure given: the published model at each time; without them it uses
0.1, 1 cm and the standard-atmosphere pressure of the site's altitude. -/
theorem solis_given (loc : Loc) (grid : ℤ → ℤ → List ℝ) (E : ℝ → Fl) (solpos : KwVal → Except PyErr (List Row))
    (t : TimeIndex) (sp : List Row) (x : List Fl) (aod pw p : List Fl) (hx : x.length = t.times.length) :
    (∃ rows, getClearsky loc grid E solpos t "simplified_solis" (some sp) (some x)
        [("aod700", .values aod), ("precipitable_water", .values pw), ("pressure", .values p)] = .ok rows ∧ rows.length = t.times.length ∧
      ∀ (i : ℕ) (h : i < rows.length) (h1 : i < sp.length) (h2 : i < x.length) (h3 : i < aod.length) (h4 : i < pw.length) (h5 : i < p.length),
        rows[i] = ofIrr (Clearsky.simplifiedSolis sp[i].apparent_elevation aod[i] pw[i] p[i] x[i])) ∧
    ∃ rows, getClearsky loc grid E solpos t "simplified_solis" (some sp) (some x) [] = .ok rows ∧ rows.length = t.times.length ∧
      ∀ (i : ℕ) (h : i < rows.length) (h1 : i < sp.length) (h2 : i < x.length),
        rows[i] = ofIrr (Clearsky.simplifiedSolis sp[i].apparent_elevation (fin 0.1) 1 (Atmosphere.alt2pres loc.altitude) x[i]) := by
  constructor
  · have e1 : PyDict.get? [("aod700", KwVal.values aod), ("precipitable_water", .values pw), ("pressure", .values p)] "pressure" = some (.values p) := by
      simp [PyDict.get?, List.lookup]
    have e2 : popped [("aod700", KwVal.values aod), ("precipitable_water", .values pw), ("pressure", .values p)] "pressure" =
        [("aod700", .values aod), ("precipitable_water", .values pw)] := by simp [popped]
    have e3 : PyDict.get? [("aod700", KwVal.values aod), ("precipitable_water", .values pw)] "aod700" = some (.values aod) := by
      simp [PyDict.get?, List.lookup]
    have e4 : PyDict.get? [("aod700", KwVal.values aod), ("precipitable_water", .values pw)] "precipitable_water" = some (.values pw) := by
      simp [PyDict.get?, List.lookup]
    refine ⟨_, by
      unfold getClearsky
      simp only [extraOf, Except.bind, e1, e2, e3, e4]
      rw [if_neg (by decide), if_neg (by decide), if_pos trivial, if_neg (by simp)], by simp, ?_⟩
    intro i h h1 h2 h3 h4 h5
    simp [KwVal.at, h1, h2, h3, h4, h5]
  · have e1 (key : String) : PyDict.get? ([] : PyDict KwVal) key = none := by simp [PyDict.get?, List.lookup]
    have e2 : popped [] "pressure" = [] := by simp [popped]
    refine ⟨_, by
      unfold getClearsky
      simp only [extraOf, Except.bind, e1, e2]
      rw [if_neg (by decide), if_neg (by decide), if_pos trivial, if_neg (by simp)], by simp, ?_⟩
    intro i h h1 h2
    have h3 : i < t.times.length := hx ▸ h2
    simp [KwVal.at, h1, h2, h3]

example (grid : ℤ → ℤ → List ℝ) (E : ℝ → Fl) (sp : KwVal → Except PyErr (List Row)) := solis_given demoLoc grid E sp ⟨none, [0]⟩ [demoRow]
  [fin 1367] [fin 0.2] [fin 3] [fin 90000] rfl

/-- **C177.**  Which keywords each model takes; anything else raises.  Both `linke_turbidity` and `interp_turbidity` together raise too. -/
theorem accepted_keywords (loc : Loc) (grid : ℤ → ℤ → List ℝ) (E : ℝ → Fl) (solpos : KwVal → Except PyErr (List Row))
    (t : TimeIndex) (model : String) (sp : Option (List Row)) (x : Option (List Fl)) (kw : PyDict KwVal) (rows : List ClearRow)
    (h : getClearsky loc grid E solpos t model sp x kw = .ok rows) :
    model ∈ ["ineichen", "haurwitz", "simplified_solis"] ∧
    (model = "ineichen" → (∀ p ∈ kw, p.1 ∈ ["pressure", "linke_turbidity", "interp_turbidity", "airmass_absolute", "perez_enhancement"]) ∧
      (kw.get? "linke_turbidity" = none ∨ kw.get? "interp_turbidity" = none)) ∧
    (model = "simplified_solis" → ∀ p ∈ kw, p.1 ∈ ["pressure", "aod700", "precipitable_water"]) ∧ rows.length = t.times.length := by
  unfold getClearsky at h
  obtain ⟨l, -, h⟩ := bind_ok h
  dsimp only at h
  obtain ⟨rs, -, h⟩ := bind_ok h
  by_cases h1 : model = "ineichen"
  · subst h1
    rw [if_pos rfl] at h
    obtain ⟨tl, -, h⟩ := bind_ok h
    obtain ⟨am, -, h⟩ := bind_ok h
    rw [get_popped_ne _ (show "linke_turbidity" ≠ "pressure" by decide)] at h
    cases hk : kw.get? "linke_turbidity" with
    | none =>
      rw [hk] at h
      dsimp only at h
      by_cases hno : ∃ p ∈ popped (popped (popped kw "pressure") "interp_turbidity") "airmass_absolute", p.1 ≠ "perez_enhancement"
      · rw [if_pos hno] at h; cases h
      rw [if_neg hno] at h
      obtain rfl := Except.ok.inj h
      refine ⟨by simp, fun _ => ?_, fun h => absurd h (by decide), by simp⟩
      push Not at hno
      refine ⟨fun p hp => ?_, .inl rfl⟩
      by_contra hc
      simp only [List.mem_cons, List.not_mem_nil, or_false, not_or] at hc
      exact hc.2.2.2.2 (hno p (popped_mem.mpr ⟨popped_mem.mpr ⟨popped_mem.mpr ⟨hp, hc.1⟩, hc.2.2.1⟩, hc.2.2.2.1⟩))
    | some v =>
      rw [hk] at h
      dsimp only at h
      by_cases hno : ∃ p ∈ popped (popped (popped kw "pressure") "linke_turbidity") "airmass_absolute", p.1 ≠ "perez_enhancement"
      · rw [if_pos hno] at h; cases h
      rw [if_neg hno] at h
      obtain rfl := Except.ok.inj h
      refine ⟨by simp, fun _ => ?_, fun h => absurd h (by decide), by simp⟩
      push Not at hno
      have key : ∀ p ∈ kw, p.1 ∈ ["pressure", "linke_turbidity", "airmass_absolute", "perez_enhancement"] := by
        intro p hp
        by_contra hc
        simp only [List.mem_cons, List.not_mem_nil, or_false, not_or] at hc
        exact hc.2.2.2 (hno p (popped_mem.mpr ⟨popped_mem.mpr ⟨popped_mem.mpr ⟨hp, hc.1⟩, hc.2.1⟩, hc.2.2.1⟩))
      refine ⟨fun p hp => ?_, .inr (get_none_of fun p hp e => ?_)⟩
      · have := key p hp
        simp only [List.mem_cons, List.not_mem_nil, or_false] at this ⊢
        tauto
      · have := key p hp
        rw [e] at this
        simp at this
  · rw [if_neg h1] at h
    by_cases h2 : model = "haurwitz"
    · subst h2
      rw [if_pos rfl] at h
      obtain rfl := Except.ok.inj h
      exact ⟨by simp, fun h => absurd h (by decide), fun h => absurd h (by decide), by simp⟩
    · rw [if_neg h2] at h
      by_cases h3 : model = "simplified_solis"
      · subst h3
        rw [if_pos rfl] at h
        split at h
        · cases h
        · rename_i hno
          obtain rfl := Except.ok.inj h
          refine ⟨by simp, fun h => absurd h (by decide), fun _ p hp => ?_, by simp⟩
          by_contra hc
          simp only [List.mem_cons, List.not_mem_nil, or_false, not_or] at hc
          exact hno ⟨p, popped_mem.mpr ⟨hp, hc.1⟩, hc.2.1, hc.2.2⟩
      · rw [if_neg h3] at h
        cases h

example (grid : ℤ → ℤ → List ℝ) (E : ℝ → Fl) (sp : KwVal → Except PyErr (List Row)) := accepted_keywords demoLoc grid E sp ⟨none, [0]⟩ "haurwitz"
  (some [demoRow]) none [] _ (haurwitz_ignores demoLoc grid E sp ⟨none, [0]⟩ [demoRow] none [] rfl)

/-- **C177.**  An unknown model raises `ValueError` once a solar position is available. -/
theorem unknown_model (loc : Loc) (grid : ℤ → ℤ → List ℝ) (E : ℝ → Fl) (solpos : KwVal → Except PyErr (List Row))
    (t : TimeIndex) (model : String) (hm : model ∉ ["ineichen", "haurwitz", "simplified_solis"]) (sp : List Row)
    (x : Option (List Fl)) (kw : PyDict KwVal) :
    getClearsky loc grid E solpos t model (some sp) x kw = .error .valueError := by
  have hx : ∃ l, extraOf E t x = .ok l := by
    cases x with
    | some l => exact ⟨l, rfl⟩
    | none =>
      obtain ⟨vs, h, -⟩ := Times.index_elementwise E (1366.1) "spencer" (by decide) t 2014
      exact ⟨vs, by simp only [extraOf, h]⟩
  obtain ⟨l, hx⟩ := hx
  simp only [List.mem_cons, List.not_mem_nil, or_false, not_or] at hm
  unfold getClearsky
  simp only [hx, Except.bind]
  rw [if_neg hm.1, if_neg hm.2.1, if_neg hm.2.2]

example (grid : ℤ → ℤ → List ℝ) (E : ℝ → Fl) (sp : KwVal → Except PyErr (List Row)) := unknown_model demoLoc grid E sp ⟨none, [0]⟩ "bird"
  (by decide) [demoRow] none []

private theorem mapErr_ok {α β : Type} (f : α → Except PyErr β) (P : α → β → Prop) (l : List α)
    (h : ∀ a ∈ l, ∃ b, f a = .ok b ∧ P a b) : ∃ r, mapErr f l = .ok r ∧ List.Forall₂ P l r := by
  induction l with
  | nil => exact ⟨[], rfl, .nil⟩
  | cons a as ih =>
    obtain ⟨b, h1, h2⟩ := h a List.mem_cons_self
    obtain ⟨r, h3, h4⟩ := ih fun c hc => h c (List.mem_cons_of_mem _ hc)
    exact ⟨b :: r, by simp only [mapErr, h1, h3, Except.bind], .cons h2 h4⟩

private theorem date_month (u : ℝ) : 1 ≤ (Times.dateOf u).month ∧ (Times.dateOf u).month ≤ 12 := by
  unfold Times.dateOf
  generalize (⌊u / 86400⌋ + (Times.epochOrdinal : ℤ)).toNat = n
  rcases Nat.eq_zero_or_pos n with rfl | h
  · exact ⟨by decide, by decide⟩
  · obtain ⟨hv, -⟩ := Calendar.ofOrdinal_spec h
    exact ⟨hv.2.1, hv.2.2.1⟩

private theorem forall2_getD {α : Type} {P : α → Fl → Prop} {l : List α} {r : List Fl} (h : List.Forall₂ P l r) {i : ℕ}
    (hi : i < l.length) : P l[i] (r.getD i nan) := by
  have hl := h.length_eq
  rw [List.getD_eq_getElem?_getD, List.getElem?_eq_getElem (by omega), Option.getD_some]
  exact (List.forall₂_iff_get.mp h).2 i hi (by omega)

/-- **C177, the default model end to end.**  For every location on Earth (whose stored turbidities are at least 1, i.e. 20 in the
file), all times, and any solar position with apparent zeniths from 0 to 180 degrees, `get_clearsky` succeeds; every row has real
non-negative GHI, DNI and DHI with `GHI = DHI + DNI cos(zenith)`, and all three are zero, not NaN, once the sun is down. -/
theorem clearsky_physical (loc : Loc) (lat lon alt : ℝ) (hloc : loc.latitude = fin lat ∧ loc.longitude = fin lon ∧ loc.altitude = fin alt)
    (h1 : -90 ≤ lat) (h2 : lat ≤ 90) (h3 : -180 ≤ lon) (h4 : lon ≤ 180) (h5 : -17000 ≤ alt) (h6 : alt < 44331.514)
    (grid : ℤ → ℤ → List ℝ) (hg : ∀ i j, (grid i j).length = 12 ∧ ∀ v ∈ grid i j, 20 ≤ v ∧ v ≤ 255)
    (E : ℝ → Fl) (solpos : KwVal → Except PyErr (List Row)) (t : TimeIndex) (sp : List Row)
    (hl : sp.length = t.times.length) (hz : ∀ r ∈ sp, ∃ z : ℝ, r.apparent_zenith = fin z ∧ 0 ≤ z ∧ z ≤ 180) :
    ∃ rows, getClearsky loc grid E solpos t "ineichen" (some sp) none [] = .ok rows ∧
      List.Forall₂ (fun r row => ∃ z g n d : ℝ, r.apparent_zenith = fin z ∧ row = ⟨fin g, some (fin n, fin d)⟩ ∧
        g = d + n * max (cosDeg z) 0 ∧ 0 ≤ g ∧ 0 ≤ n ∧ 0 ≤ d ∧ (90 ≤ z → g = 0 ∧ n = 0 ∧ d = 0)) sp rows := by
  obtain ⟨e1, e2, e3⟩ := hloc
  -- extraterrestrial irradiance
  obtain ⟨ex, hex, hexv⟩ := Times.index_elementwise E (1366.1) "spencer" (by decide) t 2014
  have hex' : List.Forall₂ (fun _ v => ∃ I : ℝ, v = fin I ∧ 0 ≤ I) t.times ex := by
    refine List.Forall₂.imp ?_ hexv
    intro u v huv
    by_cases hd : ∃ d, Times.OnDay d u
    · obtain ⟨d, hd⟩ := hd
      obtain ⟨w, hw, hw', -, -⟩ := Times.utc_day_of_year E (1366.1) "spencer" (by decide) d u hd t.tz 2014
      obtain ⟨f, hf, hf1, -⟩ := Decomposition.extra_near_constant (d.doy : ℝ) 1366.1 "spencer" (.inl (by decide))
      rw [ofScientific_eq] at hw
      dsimp only at huv
      rw [hw'] at huv
      have : w = v := by cases huv; rfl
      subst this
      rw [hf] at hw
      refine ⟨_, (Except.ok.inj hw).symm, ?_⟩
      have : (0 : ℝ) ≤ f := by linarith [show (0 : ℝ) ≤ 0.96 by norm_num]
      positivity
    · -- before year 1: the calendar clamps, the value is still that of a real day
      obtain ⟨w, hw⟩ := Times.instant_decides E (1366.1) "spencer" (by decide) u
      have hv : w = v := by
        have := (hw t.tz 2014).1
        dsimp only at huv
        rw [this] at huv
        cases huv; rfl
      subst hv
      have h0 : (Times.dateOf u) = ⟨1, 1, 1⟩ := by
        unfold Times.dateOf
        have : (⌊u / 86400⌋ + (Times.epochOrdinal : ℤ)).toNat ≤ 1 := by
          by_contra hc
          push Not at hc
          apply hd
          refine ⟨Times.dateOf u, Times.onDay_dateOf ?_⟩
          unfold Times.midnight
          rw [show (⟨1, 1, 1⟩ : Calendar.Date).ordinal = 1 from by decide]
          have hc' : (1 : ℤ) ≤ ⌊u / 86400⌋ + (Times.epochOrdinal : ℤ) := by omega
          have : (-719162 : ℤ) ≤ ⌊u / 86400⌋ := by unfold Times.epochOrdinal at hc'; omega
          rw [Int.le_floor] at this
          push_cast at this
          rw [le_div_iff₀ (by norm_num)] at this
          push_cast
          linarith
        interval_cases (⌊u / 86400⌋ + (Times.epochOrdinal : ℤ)).toNat <;> decide
      have hs := (hw none 2014).1
      have : Times.getExtraRadiation E (.timestamp none u) (1366.1) "spencer" 2014 =
          (Irradiance.getExtraRadiation (fin ((1 : ℕ) : ℝ)) (1366.1) "spencer").bind fun v => .ok (.scalar v) := by
        unfold Times.getExtraRadiation
        rw [if_pos (Or.inr (by decide))]
        have : Times.toDoy (.timestamp none u) = [fin ((1 : ℕ) : ℝ)] := by
          simp only [Times.toDoy, Times.pandasToDoy, Times.readings_utc, List.map_cons, List.map_nil, h0]
          rfl
        rw [this]
        simp only [mapErr]
        cases Irradiance.getExtraRadiation (fin ((1 : ℕ) : ℝ)) (1366.1) "spencer" <;> rfl
      obtain ⟨f, hf, hf1, -⟩ := Decomposition.extra_near_constant ((1 : ℕ) : ℝ) 1366.1 "spencer" (.inl (by decide))
      rw [this, ofScientific_eq, hf] at hs
      refine ⟨1366.1 * f, ?_, ?_⟩
      · cases hs; rfl
      · have : (0 : ℝ) ≤ f := by linarith [show (0 : ℝ) ≤ 0.96 by norm_num]
        positivity
  -- turbidity
  obtain ⟨tl, htl, htlv⟩ := mapErr_ok
    (fun u => (Clearsky.lookupLinke grid (linkeDate u) (fin lat) (fin lon) true).bind fun x => .ok (fin x))
    (fun _ v => ∃ x : ℝ, v = fin x ∧ 1 ≤ x) t.times (by
      intro u _
      obtain ⟨i, j, -, -, -, -, -, -, -, -, h⟩ := Linke.lookup_spec grid (fun i j => (hg i j).1) (linkeDate u) (date_month u) h1 h2 h3 h4
      obtain ⟨v, hv, hv1, -⟩ := h true 20 255 (hg i j).2
      refine ⟨fin v, by rw [hv]; rfl, v, rfl, by linarith⟩)
  -- airmass
  obtain ⟨p, q, hp, hq, hq0, hpq⟩ := Atmosphere.alt2pres_antitone (alt - 1) alt (by linarith) h6
  obtain ⟨am, ham, hamv⟩ := mapErr_ok
    (fun r : Row => (getAirmass (fin alt) r.zenith r.apparent_zenith).bind fun a => .ok a.2)
    (fun r v => ∃ z : ℝ, r.apparent_zenith = fin z ∧ 0 ≤ z ∧ z ≤ 180 ∧ (v = nan ∧ 90 < z ∨ ∃ a : ℝ, v = fin a ∧ 0 ≤ a ∧ z ≤ 90)) sp (by
      intro r hr
      obtain ⟨z, hz1, hz2, hz3⟩ := hz r hr
      have hmem : "kastenyoung1989" ∈ Atmosphere.apparentZenithModels := by decide
      unfold getAirmass
      rw [if_pos hmem, hz1]
      by_cases h90 : z ≤ 90
      · obtain ⟨a, ha0, ha⟩ := Props.Atmosphere.airmass_positive "kastenyoung1989" z hz2 h90 (by decide)
        rw [ha]
        refine ⟨Atmosphere.absoluteAirmass (fin a) (Atmosphere.alt2pres (fin alt)), rfl, z, rfl, hz2, hz3, .inr ⟨a * q / 101325, ?_, by positivity, h90⟩⟩
        unfold Atmosphere.absoluteAirmass
        rw [hq, fin_mul, ofNat_eq, fin_div (by norm_num)]
      · have h90 := not_le.mp h90
        obtain ⟨a, ha⟩ := (Props.Atmosphere.airmass_accepts "kastenyoung1989" (fin z)).2 (by decide)
        have hn := Props.Atmosphere.airmass_night "kastenyoung1989" (fin z) (.inl (by rw [ofNat_eq]; exact h90)) a ha
        rw [ha, hn]
        refine ⟨Atmosphere.absoluteAirmass nan (Atmosphere.alt2pres (fin alt)), rfl, z, rfl, hz2, hz3, .inl ⟨?_, h90⟩⟩
        unfold Atmosphere.absoluteAirmass
        rw [hq]
        rfl)
  refine ⟨(List.range t.times.length).map fun i => ofIrr (Clearsky.ineichen ((sp.map Row.apparent_zenith).getD i nan)
    (am.getD i nan) (tl.getD i nan) (fin alt) (ex.getD i nan) false), ?_, ?_⟩
  · unfold getClearsky
    have : extraOf E t none = .ok ex := by simp only [extraOf, hex]
    simp only [this, Except.bind, popped, List.filter_nil, PyDict.get?, given, e1, e2, e3, if_true]
    have htl' := htl
    have ham' := ham
    simp only [Except.bind] at htl' ham'
    rw [htl']
    dsimp only
    rw [ham']
    dsimp only
    rw [if_neg (by rintro ⟨p, hp, -⟩; cases hp)]
  · rw [List.forall₂_iff_get]
    refine ⟨by simp [hl], fun i hi1 hi2 => ?_⟩
    have hi : i < t.times.length := by omega
    simp only [List.get_eq_getElem, List.getElem_map, List.getElem_range]
    obtain ⟨I, hI, hI0⟩ := forall2_getD hex' hi
    obtain ⟨x, hx, hx1⟩ := forall2_getD htlv hi
    obtain ⟨z, hz1, hz2, hz3, ha⟩ := forall2_getD hamv hi1
    have haz : (sp.map Row.apparent_zenith).getD i nan = fin z := by
      rw [List.getD_eq_getElem?_getD, List.getElem?_map, List.getElem?_eq_getElem hi1]
      exact hz1
    rw [hI, hx, haz]
    have hx0 : x ≠ 0 := by linarith
    have hc : 90 ≤ z → cosDeg z ≤ 0 := by
      intro h
      unfold cosDeg
      apply Real.cos_nonpos_of_pi_div_two_le_of_le
      · have := Real.pi_pos; nlinarith
      · have := Real.pi_pos; nlinarith
    by_cases h90 : 90 ≤ z
    · have ha' : am.getD i nan = nan ∨ ∃ a : ℝ, am.getD i nan = fin a := by
        rcases ha with ⟨h, -⟩ | ⟨a, h, -⟩
        · exact .inl h
        · exact .inr ⟨a, h⟩
      rw [Props.Clearsky.ineichen_night (hc h90) hx0 ha' hI0]
      refine ⟨z, 0, 0, 0, hz1, by simp [ofIrr], by simp, le_rfl, le_rfl, le_rfl, fun _ => ⟨rfl, rfl, rfl⟩⟩
    · rcases ha with ⟨-, h⟩ | ⟨a, h, ha0, -⟩
      · linarith
      rw [h]
      obtain ⟨g, n, d, hr, hr1, hr2, hr3, hr4⟩ := Props.Clearsky.ineichen_closure (z := z) (perez := false) hx0 ha0 hI0 h5
      rw [hr]
      refine ⟨z, g, n, d, hz1, rfl, hr1, hr2, hr3, hr4 ?_, fun h => absurd h h90⟩
      have := Real.log_two_lt_d9
      linarith

example (E : ℝ → Fl) (sp : KwVal → Except PyErr (List Row)) := clearsky_physical demoLoc 35 (-106) 1600 ⟨rfl, rfl, rfl⟩ (by norm_num) (by norm_num)
  (by norm_num) (by norm_num) (by norm_num) (by norm_num) (fun _ _ => List.replicate 12 60)
  (fun _ _ => ⟨by simp, fun v hv => by rw [List.eq_of_mem_replicate hv]; norm_num⟩) E sp ⟨none, [0]⟩ [demoRow] rfl
  (fun r hr => ⟨40, by rw [List.mem_singleton.mp hr]; rfl, by norm_num, by norm_num⟩)

end Pvlib.Props.LocationMethods
end
