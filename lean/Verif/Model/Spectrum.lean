import Verif.Model.Atmosphere
import Verif.Base.Series

/-! # Model of `pvlib/spectrum/mismatch.py`, `spectrum/response.py`, `spectrum/irradiance.py` (the arithmetic)

Spectra are lists of (wavelength, value) in index order; wavelengths are real numbers.  A DataFrame of spectra is
handled row by row. -/

noncomputable section
open scoped Classical
namespace Pvlib.Spectrum
open Fl

/-- A spectrum or spectral response: wavelength and value. (Used for pvlib/spectrum/mismatch.py:95-96.) -/
abbrev Spec := List (ℝ × Fl)

/-- `np.interp(x, xp, fp, left=0, right=0)` for a table with increasing wavelengths. (Used for pvlib/spectrum/mismatch.py:95-96.) -/
def interp0 : Spec → ℝ → Fl
  | [], _ => 0
  | [(x0, y0)], x => if x = x0 then y0 else 0
  | (x0, y0) :: (x1, y1) :: t, x =>
      if x < x0 then 0
      else if x = x0 then y0
      else if x < x1 then y0 + (y1 - y0) / fin (x1 - x0) * fin (x - x0)
      else interp0 ((x1, y1) :: t) x

/-- `scipy.integrate.trapezoid(e, x=wavelengths)`. (Used for pvlib/spectrum/mismatch.py:93-107.) -/
def trapezoid : Spec → Fl
  | (x0, y0) :: (x1, y1) :: t => fin (x1 - x0) * (y0 + y1) / 2 + trapezoid ((x1, y1) :: t)
  | _ => 0

/-- `e * sr` at the wavelengths of `e`, pvlib/spectrum/mismatch.py:95-96, 103-104. -/
def weighted (sr e : Spec) : Spec := e.map fun p => (p.1, p.2 * interp0 sr p.1)

/-- `calc_spectral_mismatch_field` for one measured spectrum and a given reference, pvlib/spectrum/mismatch.py:93-107. -/
def mismatchField (sr e_sun e_ref : Spec) : Fl :=
  let uf_sun := trapezoid (weighted sr e_sun) / trapezoid e_sun
  let uf_ref := trapezoid (weighted sr e_ref) / trapezoid e_ref
  uf_sun / uf_ref

/-- `get_reference_spectra(wavelengths)` of a tabulated standard, one column, pvlib/spectrum/irradiance.py:105-115. -/
def resample (standard : Spec) (wavelengths : List ℝ) : Spec := wavelengths.map fun w => (w, interp0 standard w)

/-- `e_ref=None`, pvlib/spectrum/mismatch.py:89-91: the standard at the wavelengths of the measured spectrum. -/
def mismatchFieldStd (standard sr e_sun : Spec) : Fl := mismatchField sr e_sun (resample standard (e_sun.map Prod.fst))

/-- The choice between `module_type` and `coefficients` common to `spectral_factor_firstsolar` (lines 266-275; raises
TypeError), `spectral_factor_pvspec` (572-583) and `spectral_factor_jrc` (680-691) (ValueError).  The name is
lower-cased before the lookup. (Used for pvlib/spectrum/mismatch.py:240-283.) -/
def chooseCoeff (tbl : List (String × List ℝ)) (err : PyErr) (module_type : Option String) (coefficients : Option (List Fl)) :
    Except PyErr (List Fl) :=
  match module_type, coefficients with
  | some m, none => match tbl.lookup (pyLower m) with
      | some c => .ok (c.map fin)
      | none => .error (.keyError (pyLower m))
  | none, some c => .ok c
  | _, _ => .error err

/-- `coeff[i]`; the tuples given by callers are assumed long enough (a shorter one raises IndexError in the code). (Used for pvlib/spectrum/mismatch.py:240-283.) -/
def cf (c : List Fl) (i : ℕ) : Fl := c.getD i nan

/-- `_coefficients`, pvlib/spectrum/mismatch.py:252-264. -/
def firstsolarTable : List (String × List ℝ) :=
  [("cdte", [0.86273, -0.038948, -0.012506, 0.098871, 0.084658, -0.0042948]),
   ("monosi", [0.85914, -0.020880, -0.0058853, 0.12029, 0.026814, -0.0017810]),
   ("xsi", [0.85914, -0.020880, -0.0058853, 0.12029, 0.026814, -0.0017810]),
   ("polysi", [0.84090, -0.027539, -0.0079224, 0.13570, 0.038024, -0.0021218]),
   ("multisi", [0.84090, -0.027539, -0.0079224, 0.13570, 0.038024, -0.0021218]),
   ("cigs", [0.85252, -0.022314, -0.0047216, 0.13666, 0.013342, -0.0008945]),
   ("asi", [1.12094, -0.047620, -0.0083627, -0.10443, 0.098382, -0.0033818])]

/-- `spectral_factor_firstsolar`, pvlib/spectrum/mismatch.py:240-283. -/
def firstsolar (precipitable_water airmass_absolute : Fl) (module_type : Option String) (coefficients : Option (List Fl))
    (min_pw : Fl := 0.1) (max_pw : Fl := 8) (min_am : Fl := 0.58) (max_am : Fl := 10) : Except PyErr Fl :=
  let pw := maximum precipitable_water min_pw
  let pw := if max_pw < pw then nan else pw
  let ama := maximum (minimum airmass_absolute max_am) min_am
  match chooseCoeff firstsolarTable .typeError module_type coefficients with
  | .error e => .error e
  | .ok c => .ok (cf c 0 + cf c 1 * ama + cf c 2 * pw + cf c 3 * Fl.sqrt ama + cf c 4 * Fl.sqrt pw + cf c 5 * ama / Fl.sqrt pw)

/-- `spectral_factor_sapm`, pvlib/spectrum/mismatch.py:352-359 (`np.polyval` by Horner's rule). -/
def sapmFactor (ama A0 A1 A2 A3 A4 : Fl) : Fl :=
  let spectral_loss := (((((0 * ama + A4) * ama + A3) * ama + A2) * ama + A1) * ama + A0)
  let spectral_loss := npwhere (isnan spectral_loss) 0 spectral_loss
  maximum 0 spectral_loss

/-- `_coefficients`, pvlib/spectrum/mismatch.py:434-452. -/
def caballeroTable : List (String × List ℝ) :=
  [("cdte", [1.0044, 0.0095, -0.0037, 0.0002, 0.0000, -0.0046, -0.0182, 0, 0.0095, 0.0068, 0, 1]),
   ("monosi", [0.9706, 0.0377, -0.0123, 0.0025, -0.0002, 0.0159, -0.0165, 0, -0.0016, -0.0027, 1, 0]),
   ("multisi", [0.9836, 0.0254, -0.0085, 0.0016, -0.0001, 0.0094, -0.0132, 0, -0.0002, -0.0011, 1, 0]),
   ("cigs", [0.9801, 0.0283, -0.0092, 0.0019, -0.0001, 0.0117, -0.0126, 0, -0.0011, -0.0019, 1, 0]),
   ("asi", [1.1060, -0.0848, 0.0302, -0.0076, 0.0006, -0.1283, 0.0986, -0.0254, 0.0156, 0.0146, 1, 0]),
   ("perovskite", [1.0637, -0.0491, 0.0180, -0.0047, 0.0004, -0.0773, 0.0583, -0.0159, 0.01251, 0.0109, 1, 0])]

/-- The choice in `spectral_factor_caballero` (lines 425-429, 454-457) and `spectral_factor_polo` (767-771, 790-795):
case-sensitive. (Used for pvlib/spectrum/mismatch.py:425-484.) -/
def chooseCoeffCS (tbl : List (String × List ℝ)) (module_type : Option String) (coefficients : Option (List Fl)) :
    Except PyErr (List Fl) :=
  match module_type, coefficients with
  | some m, none => match tbl.lookup m with
      | some c => .ok (c.map fin)
      | none => .error (.keyError m)
  | none, some c => .ok c
  | _, _ => .error .valueError

/-- `spectral_factor_caballero`, pvlib/spectrum/mismatch.py:425-484. -/
def caballero (precipitable_water ama aod500 : Fl) (module_type : Option String) (coefficients : Option (List Fl)) :
    Except PyErr Fl :=
  match chooseCoeffCS caballeroTable module_type coefficients with
  | .error e => .error e
  | .ok c =>
    let f_AM := cf c 0 + cf c 1 * ama + cf c 2 * ama ^ 2 + cf c 3 * ama ^ 3 + cf c 4 * ama ^ 4
    let f_AOD := (aod500 - fin 0.084) *
      (cf c 5 + cf c 10 * cf c 6 * ama + cf c 11 * cf c 6 * Fl.log ama + cf c 7 * ama ^ 2)
    let f_PW := (precipitable_water - fin 1.4164) * (cf c 8 + cf c 9 * Fl.log ama)
    .ok (f_AM + f_AOD + f_PW)

/-- `_coefficients`, pvlib/spectrum/mismatch.py:564-570. -/
def pvspecTable : List (String × List ℝ) :=
  [("multisi", [0.9847, -0.05237, 0.03034]), ("monosi", [0.9845, -0.05169, 0.03034]),
   ("fs4-2", [1.002, -0.07108, 0.02465]), ("fs4-1", [0.9981, -0.05776, 0.02336]),
   ("cigs", [0.9791, -0.03904, 0.03096]), ("asi", [1.051, -0.1033, 0.009838])]

/-- `spectral_factor_pvspec`, pvlib/spectrum/mismatch.py:572-590. -/
def pvspec (ama clearsky_index : Fl) (module_type : Option String) (coefficients : Option (List Fl)) : Except PyErr Fl :=
  match chooseCoeff pvspecTable .valueError module_type coefficients with
  | .error e => .error e
  | .ok c => .ok (cf c 0 * Fl.rpow clearsky_index (cf c 1) * Fl.rpow ama (cf c 2))

/-- `_coefficients` after normalisation, pvlib/spectrum/mismatch.py:672-679. -/
def jrcTable : List (String × List ℝ) :=
  [("multisi", [0.00172 / 0.00348, 0.000508 / 0.00348, 0.00000357 / 0.00348]),
   ("cdte", [0.000643 / 0.001150, 0.000130 / 0.001150, 0.0000108 / 0.001150])]

/-- `spectral_factor_jrc`, pvlib/spectrum/mismatch.py:680-700. -/
def jrc (airmass clearsky_index : Fl) (module_type : Option String) (coefficients : Option (List Fl)) : Except PyErr Fl :=
  match chooseCoeff jrcTable .valueError module_type coefficients with
  | .error e => .error e
  | .ok c => .ok (1 + cf c 0 * (Fl.exp (-clearsky_index) - Fl.exp (-1)) + cf c 1 * (clearsky_index - 1)
      + cf c 2 * (airmass - fin 1.5))

/-- `_coefficients` followed by `c`, pvlib/spectrum/mismatch.py:778-789. -/
def poloTable : List (String × List ℝ) :=
  [("cdte", [-0.0009, 46.80, 49.20, -0.87, 0.00041, 0.053, 0.0021, -0.01, 1.01]),
   ("monosi", [0.0027, 10.34, 9.48, 0.31, 0.00077, 0.006, 0, -0.003, 1.0]),
   ("cigs", [0.0017, 2.33, 1.30, 0.11, 0.00098, -0.018, -0.0009, -0.0003, 1]),
   ("asi", [0.0024, 7.32, 7.09, -0.72, -0.0013, 0.089, 0.0056, -0.020, 1.014])]

/-- `spectral_factor_polo`, pvlib/spectrum/mismatch.py:767-801.  The given coefficients are the nine numbers in order. -/
def polo (precipitable_water airmass_absolute aod500 aoi pressure : Fl) (module_type : Option String)
    (coefficients : Option (List Fl)) (albedo : Fl := 0.2) : Except PyErr Fl :=
  match chooseCoeffCS poloTable module_type coefficients with
  | .error e => .error e
  | .ok c =>
    match Atmosphere.relativeAirmass (minimum aoi 90) "kastenyoung1989" with
    | .error e => .error e
    | .ok f_aoi_rel =>
      let f_aoi := Atmosphere.absoluteAirmass f_aoi_rel pressure
      let Ram := f_aoi / airmass_absolute
      let smm := cf c 0 * Ram + cf c 1 / (cf c 2 + Fl.rpow Ram (cf c 3)) + cf c 4 / aod500 +
        cf c 5 * Fl.sqrt precipitable_water
      let g := cf c 6 * (albedo / fin 0.2) ^ 2 + cf c 7 * (albedo / fin 0.2) + cf c 8
      .ok (g * smm)

/-- `_PLANCK_BY_LIGHT_SPEED_OVER_ELEMENTAL_CHARGE_BY_BILLION`, pvlib/spectrum/response.py:12-17 (CODATA 2018). -/
def hcq : ℝ := 299792458 * 6.62607015e-34 / 1.602176634e-19 * 1e9

/-- `normalize_max2one` of an array, pvlib/tools.py:559-560. -/
def normalizeMax2one (a : List Fl) : List Fl :=
  let m := (a.map Fl.abs).foldl maximum ninf
  a.map fun x => x / m

/-- `sr_to_qe`, pvlib/spectrum/response.py:170-179, on values and wavelengths. -/
def srToQe (sr : Spec) (normalize : Bool := false) : Spec :=
  let q := sr.map fun p => (p.1, p.2 / fin p.1 * fin hcq)
  if normalize then (q.map Prod.fst).zip (normalizeMax2one (q.map Prod.snd)) else q

/-- `qe_to_sr`, pvlib/spectrum/response.py:269-278. -/
def qeToSr (qe : Spec) (normalize : Bool := false) : Spec :=
  let s := qe.map fun p => (p.1, p.2 * fin p.1 / fin hcq)
  if normalize then (s.map Prod.fst).zip (normalizeMax2one (s.map Prod.snd)) else s

/-- `h c`, joule metre (CODATA 2018), pvlib/spectrum/irradiance.py:195. -/
def hc : ℝ := 6.62607015e-34 * 299792458
/-- elementary charge. (Used for pvlib/spectrum/irradiance.py:192-206.) -/
def qe0 : ℝ := 1.602176634e-19

/-- `average_photon_energy` of one spectrum, pvlib/spectrum/irradiance.py:192-206. -/
def averagePhotonEnergy (spectra : Spec) : Except PyErr Fl :=
  if ∃ p ∈ spectra, p.2 < 0 then .error .valueError
  else
    let pfd := spectra.map fun p => (p.1, p.2 / fin (hc / (p.1 * 1e-9)))
    .ok (1 / fin qe0 * trapezoid spectra / trapezoid pfd)

end Pvlib.Spectrum
end
