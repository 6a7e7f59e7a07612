import Verif.Base.Lemmas
import Verif.Base.Py

/-! # Model of `pvlib/bifacial/pvfactors.py`: how the engine of the package pvfactors is called, and what is reported of its result -/

noncomputable section
namespace Pvlib.Pvfactors

/-- A one-dimensional array with its type.  (Used for pvlib/bifacial/pvfactors.py:93-99; scalars as solar position, which give arrays without axes, are not modelled.) -/
inductive Arr where
  | ints (l : List ℤ)
  | floats (l : List Fl)

/-- The number of elements.  (Used for pvlib/bifacial/pvfactors.py:98.) -/
def Arr.length : Arr → ℕ
  | .ints l => l.length
  | .floats l => l.length

/-- An orientation as the caller gives it: one number or a sequence.  (Used for pvlib/bifacial/pvfactors.py:98-99.) -/
inductive Angle where
  | scalar (x : Fl)
  | many (l : List Fl)

/-- A number stored in an array of integers: cut off towards zero.  (Used for pvlib/bifacial/pvfactors.py:98-99; what becomes of NaN and infinities depends on the
machine, the model takes 0.) -/
def trunc : Fl → ℤ
  | .fin x => if 0 ≤ x then ⌊x⌋ else ⌈x⌉
  | _ => 0

/-- `np.full_like(like, fill)`, pvlib/bifacial/pvfactors.py:98-99: an array of the length and of the type of `like`. -/
def fullLike (like : Arr) (fill : Angle) : Except PyErr Arr :=
  let values := match fill with
    | .scalar x => some (List.replicate like.length x)
    | .many l => if l.length = like.length then some l else match l with
      | [x] => some (List.replicate like.length x)
      | _ => none
  match values with
  | none => .error .valueError
  | some v => match like with
    | .ints _ => .ok (.ints (v.map trunc))
    | .floats _ => .ok (.floats v)

/-- `pvarray_parameters` and `irradiance_model_params`, pvlib/bifacial/pvfactors.py:105-117. -/
structure Params where
  n_pvrows : ℕ
  (axis_azimuth pvrow_height pvrow_width gcr : Fl)
  (rho_front rho_back horizon_band_angle : Fl)

/-- What the engine is called with, pvlib/bifacial/pvfactors.py:131-135. -/
structure Call (T : Type) where
  params : Params
  timestamps : List T
  (dni dhi solar_zenith solar_azimuth surface_tilt surface_azimuth : Arr)
  albedo : Fl

/-- A side of a row: weighted incident and absorbed irradiance at each time.  (Used for pvlib/bifacial/pvfactors.py:121-128.) -/
structure Side where
  (qinc qabs : List Fl)

/-- A row of the simulated array.  (Used for pvlib/bifacial/pvfactors.py:121-128.) -/
structure PvRow where
  (front back : Side)

/-- `l[i]` of Python, with negative positions counted from the end.  (Used for pvlib/bifacial/pvfactors.py:121.) -/
def pyGet {α : Type} (l : List α) (i : ℤ) : Option α := if 0 ≤ i then l[i.toNat]? else if -i ≤ l.length then l[(l.length + i).toNat]? else none

/-- Front and back, incident and absorbed, each with its times, pvlib/bifacial/pvfactors.py:138-141. -/
structure Result (T : Type) where
  (inc_front inc_back abs_front abs_back : List (T × Fl))

/-- `pvfactors_timeseries`, pvlib/bifacial/pvfactors.py:11-141.  The engine gives the rows of the simulated array; it is `run_timeseries_engine` of the package
pvfactors with the report left to the caller. -/
def timeseries {T : Type} (engine : Call T → Except PyErr (List PvRow)) (solar_azimuth solar_zenith : Arr) (surface_azimuth surface_tilt : Angle)
    (axis_azimuth : Fl) (timestamps : List T) (dni dhi : Arr) (gcr pvrow_height pvrow_width albedo : Fl) (n_pvrows : ℕ := 3) (index_observed_pvrow : ℤ := 1)
    (rho_front_pvrow : Fl := 0.03) (rho_back_pvrow : Fl := 0.05) (horizon_band_angle : Fl := 15) : Except PyErr (Result T) :=
  match fullLike solar_zenith surface_tilt with
  | .error e => .error e
  | .ok tilt => match fullLike solar_zenith surface_azimuth with
    | .error e => .error e
    | .ok azimuth =>
      match engine ⟨⟨n_pvrows, axis_azimuth, pvrow_height, pvrow_width, gcr, rho_front_pvrow, rho_back_pvrow, horizon_band_angle⟩, timestamps, dni, dhi, solar_zenith,
        solar_azimuth, tilt, azimuth, albedo⟩ with
      | .error e => .error e
      | .ok pvarray => match pyGet pvarray index_observed_pvrow with
        | none => .error .indexError
        | some row =>
          if row.front.qinc.length = timestamps.length ∧ row.front.qabs.length = timestamps.length ∧ row.back.qinc.length = timestamps.length ∧
              row.back.qabs.length = timestamps.length then
            .ok ⟨timestamps.zip row.front.qinc, timestamps.zip row.back.qinc, timestamps.zip row.front.qabs, timestamps.zip row.back.qabs⟩
          else .error .valueError

end Pvlib.Pvfactors
end
