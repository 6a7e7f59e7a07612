import Verif.Model.Location
import Verif.Model.Times
import Verif.Model.Clearsky

/-! # Model of `pvlib/location.py`: construction, and the methods that delegate to other modules -/

noncomputable section
open scoped Classical
namespace Pvlib.Location
open Fl Pvlib.Tools Pvlib.SolarPosition Pvlib.SolarDispatch Pvlib.Times

/-- A `Location`: `tz` is the name of the zone. (Used for pvlib/location.py:79-90.) -/
structure Loc where
  latitude : Fl
  longitude : Fl
  tz : String
  altitude : Fl
  name : Option String

/-- `Location.__init__`, pvlib/location.py:79-90: the zone is set before the altitude is looked up. -/
def init (db : String → Prop) (raster : ℤ → ℤ → Fin 256) (latitude longitude : Fl) (tz : TzArg := .str "UTC")
    (altitude : Option Fl := none) (name : Option String := none) : Except PyErr Loc :=
  match setTz db tz none with
  | (_, .error e) => .error e
  | (none, .ok ()) => .error .attributeError
  | (some zone, .ok ()) =>
    match altitude with
    | some a => .ok ⟨latitude, longitude, zone, a, name⟩
    | none =>
      match lookupAltitude raster latitude longitude with
      | .error e => .error e
      | .ok a => .ok ⟨latitude, longitude, zone, a, name⟩

/-- A value in a metadata dictionary. (Used for pvlib/location.py:148-225.) -/
inductive MetaVal where
  | str (s : String)
  | int (n : ℤ)
  | float (x : Fl)

/-- The value as a coordinate; text would be stored as it is and is listed here as NaN. (Used for pvlib/location.py:148-225.) -/
def MetaVal.num : MetaVal → Fl
  | .str _ => nan
  | .int n => fin n
  | .float x => x

/-- The value as text; numbers would be stored as they are and are listed here as `none`. (Used for pvlib/location.py:148-225.) -/
def MetaVal.text : MetaVal → Option String
  | .str s => some s
  | _ => none

/-- Truth value of an entry. (Used for pvlib/location.py:175.) -/
def MetaVal.truthy : MetaVal → Prop
  | .str s => s ≠ ""
  | .int n => n ≠ 0
  | .float x => x ≠ 0

/-- The value as an argument of the `tz` setter. (Used for pvlib/location.py:148-225.) -/
def MetaVal.tz : MetaVal → TzArg
  | .str s => .str s
  | .int n => .int n
  | .float x => .float x

/-- `d[key]`. (Used for pvlib/location.py:148-225.) -/
def need (d : PyDict MetaVal) (key : String) : Except PyErr MetaVal :=
  match d.get? key with
  | some v => .ok v
  | none => .error (.keyError key)

/-- `cls(latitude, longitude, tz=tz, altitude=altitude, name=name, **kwargs)`, pvlib/location.py:183-184: every parameter of
`Location` is already given, so any keyword is a duplicate or unknown (TypeError either way). `kwargs` are the names. -/
def construct (db : String → Prop) (raster : ℤ → ℤ → Fin 256) (kwargs : List String) (latitude longitude tz altitude : MetaVal)
    (name : MetaVal) : Except PyErr Loc :=
  if kwargs ≠ [] then .error .typeError
  else init db raster latitude.num longitude.num tz.tz (some altitude.num) name.text

/-- `Location.from_tmy`, pvlib/location.py:148-191: the object, and its `tmy_data` and `weather` attributes (`none` = not set). -/
def fromTmy {δ : Type} (db : String → Prop) (raster : ℤ → ℤ → Fin 256) (tmy_metadata : PyDict MetaVal) (tmy_data : Option δ)
    (kwargs : List String) : Except PyErr (Loc × Option δ × Option δ) :=
  let tmy2 : Prop := ∃ v, tmy_metadata.get? "City" = some v ∧ v.truthy
  (need tmy_metadata "latitude").bind fun latitude =>
  (need tmy_metadata "longitude").bind fun longitude =>
  (need tmy_metadata (if tmy2 then "City" else "Name")).bind fun name =>
  (need tmy_metadata "TZ").bind fun tz =>
  (need tmy_metadata "altitude").bind fun altitude =>
  (construct db raster kwargs latitude longitude tz altitude name).bind fun o => .ok (o, tmy_data, tmy_data)

/-- `Location.from_epw`, pvlib/location.py:193-225: the object, and its `weather` attribute. -/
def fromEpw {δ : Type} (db : String → Prop) (raster : ℤ → ℤ → Fin 256) (data_ : PyDict MetaVal) (data : Option δ)
    (kwargs : List String) : Except PyErr (Loc × Option δ) :=
  (need data_ "latitude").bind fun latitude =>
  (need data_ "longitude").bind fun longitude =>
  (need data_ "city").bind fun name =>
  (need data_ "TZ").bind fun tz =>
  (need data_ "altitude").bind fun altitude =>
  (construct db raster kwargs latitude longitude tz altitude name).bind fun o => .ok (o, data)

/-! ### Solar position -/

/-- `Location.get_solarposition`, pvlib/location.py:227-259. -/
def getSolarposition (loc : Loc) (numba : Numba) (lib : Libraries) (cal : Calendar) (t : TimeIndex) (pressure : Option Fl := none)
    (temperature : Fl := 12) (method : String := "nrel_numpy") (kw : SpaKw) (s : SpaState) :
    Except PyErr (Set (List Row)) × SpaState :=
  let pressure := match pressure with
    | none => Atmosphere.alt2pres loc.altitude
    | some p => p
  SolarDispatch.getSolarposition numba lib cal t loc.latitude loc.longitude (some loc.altitude) (some pressure) method temperature kw s

/-! ### Clear sky -/

/-- A keyword argument of `get_clearsky`: one value per time, or a flag. (Used for pvlib/location.py:261-331.) -/
inductive KwVal where
  | values (l : List Fl)
  | flag (b : Bool)

/-- Entry `i` of the values; scalars are taken as already spread over the times. (Used for pvlib/location.py:261-331.) -/
def KwVal.at (v : KwVal) (i : ℕ) : Fl :=
  match v with
  | .values l => l.getD i nan
  | .flag b => if b then 1 else 0

/-- Truth value of a flag. (Used for pvlib/location.py:261-331.) -/
def KwVal.isTrue (v : KwVal) : Bool :=
  match v with
  | .values _ => true
  | .flag b => b

/-- What is left after `kwargs.pop(key)`. (Used for pvlib/location.py:291-313.) -/
def popped (d : PyDict KwVal) (key : String) : PyDict KwVal := d.filter fun p => p.1 ≠ key

/-- The columns returned; `haurwitz` has only `ghi`. (Used for pvlib/location.py:317-325.) -/
structure ClearRow where
  ghi : Fl
  rest : Option (Fl × Fl)

/-- `ghi`, `dni`, `dhi`. (Used for pvlib/location.py:317-325.) -/
def ofIrr (x : Clearsky.Irr) : ClearRow := ⟨x.ghi, some (x.dni, x.dhi)⟩

/-- The UTC date of a time as far as the turbidity look-up reads it. (Used for pvlib/clearsky.py:152-261.) -/
def linkeDate (u : ℝ) : Clearsky.Date :=
  let d := dateOf u
  ⟨Calendar.leap d.year, d.doy, d.month⟩

/-- `dni_extra`, pvlib/location.py:288-289. -/
def extraOf (E : ℝ → Fl) (t : TimeIndex) (dni_extra : Option (List Fl)) : Except PyErr (List Fl) :=
  match dni_extra with
  | some l => .ok l
  | none =>
    match Times.getExtraRadiation E (.index t) with
    | .error e => .error e
    | .ok (.series _ l) => .ok l
    | .ok _ => .error .typeError

/-- `kwargs.pop(key)`, or the other computation. (Used for pvlib/location.py:291-315.) -/
def given (v : Option KwVal) (n : ℕ) (other : Except PyErr (List Fl)) : Except PyErr (List Fl) :=
  match v with
  | some v => .ok ((List.range n).map v.at)
  | none => other

/-- `Location.get_clearsky`, pvlib/location.py:261-331.  `solpos p` is `self.get_solarposition(times, pressure=p)`;
`grid` the file of turbidities.  Values are matched to times by position (pandas matches labels; with the index `times`
everywhere this is the same). -/
def getClearsky (loc : Loc) (grid : ℤ → ℤ → List ℝ) (E : ℝ → Fl) (solpos : KwVal → Except PyErr (List Row)) (t : TimeIndex)
    (model : String) (solar_position : Option (List Row)) (dni_extra : Option (List Fl)) (kwargs : PyDict KwVal) :
    Except PyErr (List ClearRow) :=
  (extraOf E t dni_extra).bind fun dni_extra =>
  let n := t.times.length
  let pressure : KwVal := match kwargs.get? "pressure" with
    | some p => p
    | none => .values (List.replicate n (Atmosphere.alt2pres loc.altitude))
  let kwargs := popped kwargs "pressure"
  (match solar_position with
    | some sp => .ok sp
    | none => solpos pressure : Except PyErr (List Row)).bind fun sp =>
  let apparent_zenith (i : ℕ) : Fl := (sp.map Row.apparent_zenith).getD i nan
  let apparent_elevation (i : ℕ) : Fl := (sp.map Row.apparent_elevation).getD i nan
  if model = "ineichen" then
    let interp := match kwargs.get? "interp_turbidity" with
      | some v => v.isTrue
      | none => true
    (given (kwargs.get? "linke_turbidity") n
      (mapErr (fun u => (Clearsky.lookupLinke grid (linkeDate u) loc.latitude loc.longitude interp).bind fun x => .ok (fin x))
        t.times)).bind fun tl =>
    let kwargs := match kwargs.get? "linke_turbidity" with
      | some _ => popped kwargs "linke_turbidity"
      | none => popped kwargs "interp_turbidity"
    (given (kwargs.get? "airmass_absolute") n
      (mapErr (fun r : Row => (getAirmass loc.altitude r.zenith r.apparent_zenith).bind fun a => .ok a.2) sp)).bind fun am =>
    let kwargs := popped kwargs "airmass_absolute"
    if ∃ p ∈ kwargs, p.1 ≠ "perez_enhancement" then .error .typeError
    else
      let perez := match kwargs.get? "perez_enhancement" with
        | some v => v.isTrue
        | none => false
      .ok ((List.range n).map fun i => ofIrr (Clearsky.ineichen (apparent_zenith i) (am.getD i nan) (tl.getD i nan)
        loc.altitude (dni_extra.getD i nan) perez))
  else if model = "haurwitz" then
    .ok ((List.range n).map fun i => ⟨Clearsky.haurwitz (apparent_zenith i), none⟩)
  else if model = "simplified_solis" then
    if ∃ p ∈ kwargs, p.1 ≠ "aod700" ∧ p.1 ≠ "precipitable_water" then .error .typeError
    else
      .ok ((List.range n).map fun i => ofIrr (Clearsky.simplifiedSolis (apparent_elevation i)
        (match kwargs.get? "aod700" with | some v => v.at i | none => fin 0.1)
        (match kwargs.get? "precipitable_water" with | some v => v.at i | none => 1)
        (pressure.at i) (dni_extra.getD i nan)))
  else .error .valueError

/-! ### Sunrise, sunset and transit -/

/-- Keyword arguments of the three implementations. (Used for pvlib/location.py:384-422.) -/
structure RiseKw where
  next_or_previous : String := "next"
  how : String := "numpy"
  delta_t : Option Fl := some 67
  declination : List Fl := []
  equation_of_time : List Fl := []

/-- `Location.get_sun_rise_set_transit`, pvlib/location.py:384-422: (sunrise, sunset, transit) per time.  `events lat lon` are
PyEphem's events for an observer there. -/
def getSunRiseSetTransit (loc : Loc) (events : Fl → Fl → EphemEvents) (numba : Numba) (cal : Calendar) (t : TimeIndex)
    (method : String := "spa") (kw : RiseKw) (s : SpaState) : Except PyErr (List (Fl × Fl × Fl)) × SpaState :=
  if method = "pyephem" then
    ((sunRiseSetTransitEphem (events loc.latitude loc.longitude) t kw.next_or_previous).map fun l =>
      l.map fun p : ℝ × ℝ × ℝ => (fin p.1, fin p.2.1, fin p.2.2), s)
  else if method = "spa" then sunRiseSetTransitSpa numba cal t loc.latitude loc.longitude kw.how kw.delta_t s
  else if method = "geometric" then
    (sunRiseSetTransitGeometric t loc.latitude loc.longitude kw.declination kw.equation_of_time, s)
  else (.error .valueError, s)

end Pvlib.Location
end
