import Verif.Model.ToolsMisc
import Verif.Model.Atmosphere

/-! # Model of `pvlib/location.py`: the `tz` property, `get_airmass`, `lookup_altitude` -/

noncomputable section
open scoped Classical
namespace Pvlib.Location
open Fl Pvlib.Tools

/-- The kinds of Python value that can be assigned to `Location.tz`.  `tzinfo name` is a
`datetime.tzinfo` whose `str()` is `name`; `other` is anything else (including numpy integers, `None`). (Used for pvlib/location.py:104-129.) -/
inductive TzArg where
  | str (s : String)
  | int (n : ℤ)
  | float (x : Fl)
  | tzinfo (name : String)
  | other

/-- `f"{n:+d}"` for an int: sign always shown. (Used for pvlib/location.py:104-129.) -/
def fmtPlusD (n : ℤ) : String := if n < 0 then "-" ++ toString n.natAbs else "+" ++ toString n.natAbs

/-- `x % 1 != 0` for a float: NaN and infinities give NaN, which is `!= 0`. (Used for pvlib/location.py:104-129.) -/
def notWhole (x : Fl) : Prop := ¬ Fl.eqv (Fl.mod x 1) 0

/-- `int(x)` of a whole float. (Used for pvlib/location.py:104-129.) -/
def intOfWhole : Fl → ℤ
  | fin r => ⌊r⌋
  | _ => 0

/-- The setter of `Location.tz`, pvlib/location.py:104-129.  `db` is the time-zone database: the keys for
which `zoneinfo.ZoneInfo(key)` succeeds (otherwise `ZoneInfoNotFoundError`, a KeyError).  The state is the key
of `_zoneinfo` (`str(ZoneInfo(key)) == key`).  When an exception is raised the state is unchanged, because
the assignment is the last step. -/
def setTz (db : String → Prop) (tz : TzArg) (state : Option String) : Option String × Except PyErr Unit :=
  let zone (key : String) : Option String × Except PyErr Unit :=
    if db key then (some key, .ok ()) else (state, .error (.keyError key))
  match tz with
  | .str s => zone s
  | .int n => zone ("Etc/GMT" ++ fmtPlusD (-n))
  | .float x => if notWhole x then (state, .error .typeError) else zone ("Etc/GMT" ++ fmtPlusD (-(intOfWhole x)))
  | .tzinfo name => zone name
  | .other => (state, .error .typeError)

/-- The getter of `Location.tz`, pvlib/location.py:99-102: `str(self._zoneinfo)`; AttributeError before the
first successful assignment. -/
def getTz (state : Option String) : Except PyErr String :=
  match state with
  | some k => .ok k
  | none => .error .attributeError

/-- `lookup_altitude`, pvlib/location.py:425-509; `raster` is the content of `Altitude.h5` (uint8). -/
def lookupAltitude (raster : ℤ → ℤ → Fin 256) (latitude longitude : Fl) : Except PyErr Fl :=
  match degreesToIndex latitude "latitude" with
  | .error e => .error e
  | .ok latitude_index =>
    match degreesToIndex longitude "longitude" with
    | .error e => .error e
    | .ok longitude_index =>
      let alt := raster latitude_index longitude_index
      if alt.val = 255 then .ok 0
      else
        let alt : Fl := fin alt.val
        let alt := alt * 28
        let alt := alt - 450
        .ok alt

/-- `Location.get_airmass` with a given solar position, pvlib/location.py:333-382, per timestamp:
(airmass_relative, airmass_absolute). -/
def getAirmass (altitude zenith apparent_zenith : Fl) (model : String := "kastenyoung1989") :
    Except PyErr (Fl × Fl) :=
  if model ∈ Atmosphere.apparentZenithModels then do
    let airmass_relative ← Atmosphere.relativeAirmass apparent_zenith model
    return (airmass_relative, Atmosphere.absoluteAirmass airmass_relative (Atmosphere.alt2pres altitude))
  else if model ∈ Atmosphere.trueZenithModels then do
    let airmass_relative ← Atmosphere.relativeAirmass zenith model
    return (airmass_relative, Atmosphere.absoluteAirmass airmass_relative (Atmosphere.alt2pres altitude))
  else .error .valueError

end Pvlib.Location
end
