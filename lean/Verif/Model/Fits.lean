import Verif.Model.Inverter
import Verif.Model.PvArray

/-! # Model of `inverter.fit_sandia`, `scaling.latlon_to_xy` and `pvarray.fit_pvefficiency_adr` -/

noncomputable section
open scoped Classical
namespace Pvlib.Fits
open Fl Pvlib.Inverter Pvlib.Tools

/-! ### `inverter.fit_sandia` -/

/-- One data point of `fit_sandia` (the entries of the four arrays at one position). (Used for pvlib/inverter.py:448-553.) -/
structure Point where
  (ac dc v : Fl)
  level : String

/-- `arr.mean()`; NaN for an empty array. (Used for pvlib/inverter.py:504-507.) -/
def mean (xs : List Fl) : Fl := Fl.sum xs / fin xs.length

/-- `arr[dc_voltage_level == d]`, pvlib/inverter.py:505-507, 528-529. -/
def atLevel (pts : List Point) (d : String) : List Point := pts.filter fun p => p.level = d

/-- `solve_quad`, pvlib/inverter.py:516-517 (`** .5` of a negative numpy float is NaN). -/
def solveQuad (a b c : Fl) : Fl := (-b + Fl.sqrt (b ^ 2 - 4 * a * c)) / (2 * a)

/-- The row of `coeffs` for one level, pvlib/inverter.py:526-541: `(a, p_dc, p_s0)`.  `polyfit pts deg` is
`numpy.polynomial.polynomial.polyfit(x, y, deg)`, lowest order first; it raises TypeError without points. -/
def levelCoeffs (polyfit : List (Fl × Fl) → ℕ → List Fl) (pts : List Point) (p_ac_0 : Fl) (d : String) :
    Except PyErr (Fl × Fl × Fl) :=
  match (atLevel pts d).map fun p => (p.dc, p.ac) with
  | [] => .error .typeError
  | xy =>
    let k := polyfit xy 2
    let c := k.getD 0 nan
    let b := k.getD 1 nan
    let a := k.getD 2 nan
    .ok (a, solveQuad a b (c - p_ac_0), solveQuad a b c)

/-- `extract_c`, pvlib/inverter.py:520-523: `(beta0, c)`. -/
def extractC (polyfit : List (Fl × Fl) → ℕ → List Fl) (xy : List (Fl × Fl)) : Fl × Fl :=
  let k := polyfit xy 1
  (k.getD 0 nan, k.getD 1 nan / k.getD 0 nan)

/-- `fit_sandia`, pvlib/inverter.py:448-553. -/
def fitSandia (polyfit : List (Fl × Fl) → ℕ → List Fl) (pts : List Point) (p_ac_0 p_nt : Fl) : Except PyErr SandiaParams :=
  let v (d : String) : Fl := mean ((atLevel pts d).map Point.v)
  let v_nom := v "Vnom"
  let x (d : String) : Fl := v d - v_nom
  match levelCoeffs polyfit pts p_ac_0 "Vmin" with
  | .error e => .error e
  | .ok k1 => match levelCoeffs polyfit pts p_ac_0 "Vnom" with
    | .error e => .error e
    | .ok k2 => match levelCoeffs polyfit pts p_ac_0 "Vmax" with
      | .error e => .error e
      | .ok k3 =>
        let line (f : Fl × Fl × Fl → Fl) := extractC polyfit [(x "Vmin", f k1), (x "Vnom", f k2), (x "Vmax", f k3)]
        let dc := line fun k => k.2.1
        let s := line fun k => k.2.2
        let c := line fun k => k.1
        .ok ⟨p_ac_0, dc.1, v_nom, s.1, c.1, dc.2, s.2, c.2, p_nt⟩

/-! ### `scaling.latlon_to_xy` -/

/-- The argument of `latlon_to_xy`: a sequence of pairs, or one pair. (Used for pvlib/scaling.py:152-205.) -/
inductive Coordinates where
  | many (l : List (Fl × Fl))
  | one (lat lon : Fl)

/-- `r_earth`, pvlib/scaling.py:188. -/
def rEarth : Fl := 6371008.7714

/-- Metres per degree of latitude, pvlib/scaling.py:189. -/
def mPerDegLat : Fl := rEarth * fin Real.pi / 180

/-- Metres per degree of longitude at a latitude, pvlib/scaling.py:194. -/
def mPerDegLon (meanlat : Fl) : Fl := rEarth * Fl.cos (fin Real.pi / 180 * meanlat) * fin Real.pi / 180

/-- The columns swapped: `(x, y)`, pvlib/scaling.py:197-204. -/
def toXY (meanlat : Fl) (c : Fl × Fl) : Fl × Fl := (c.2 * mPerDegLon meanlat, c.1 * mPerDegLat)

/-- `latlon_to_xy`, pvlib/scaling.py:152-205.  The result of one pair is one pair: here a list of one.  No coordinates at all
cannot be broadcast: ValueError. -/
def latlonToXY : Coordinates → Except PyErr (List (Fl × Fl))
  | .many [] => .error .valueError
  | .many l => .ok (l.map (toXY (mean (l.map Prod.fst))))
  | .one lat lon => .ok [toXY lat (lat, lon)]

/-! ### `pvarray.fit_pvefficiency_adr` -/

/-- The options handed to `scipy.optimize.curve_fit`, other than data and model: those the function sets (pvlib/pvarray.py:205-212). -/
inductive FitOption where
  | vec (v : List Fl)
  | bounds (lo hi : List Fl)
  | str (s : String)
  | num (x : Fl)

/-- `fit_options` before `update`, pvlib/pvarray.py:190-212; `sigma = 1 / sqrt(irradiance / 1000)` element by element. -/
def defaultOptions (irradiance : List Fl) (eta_max : Fl) : PyDict FitOption :=
  [("p0", .vec [eta_max, -6, 0, fin 1e-3, fin 1e-3]),
   ("bounds", .bounds [0, -12, -fin 0.1, 0, 0] [pinf, 0, fin 0.1, 1, 1]),
   ("method", .str "trf"),
   ("x_scale", .vec [eta_max, 10, fin 0.1, 1, 1]),
   ("loss", .str "soft_l1"),
   ("f_scale", .num (eta_max * fin 0.05)),
   ("sigma", .vec (irradiance.map fun g => 1 / Fl.sqrt (g / 1000)))]

/-- `fit_options.update(kwargs)`, pvlib/pvarray.py:214. -/
def update (d kwargs : PyDict FitOption) : PyDict FitOption := kwargs.foldl (fun (d : PyDict FitOption) p => d.set p.1 p.2) d

/-- `np.max`; ValueError for an empty array. (Used for pvlib/pvarray.py:188.) -/
def npMax : List Fl → Except PyErr Fl
  | [] => .error .valueError
  | x :: xs => .ok (xs.foldl maximum x)

/-- `adr_wrapper`, pvlib/pvarray.py:216-217: `pvefficiency_adr(*xdata, *params)` on one point. -/
def adrWrapper (x : Fl × Fl) (params : List Fl) : Except PyErr Fl :=
  match params with
  | [k_a, k_d, tc_d, k_rs, k_rsh] => .ok (Pvlib.PvArray.pvefficiencyAdr x.1 x.2 k_a k_d tc_d k_rs k_rsh)
  | _ => .error .typeError

/-- `P_NAMES`, pvlib/pvarray.py:190. -/
def pNames : List String := ["k_a", "k_d", "tc_d", "k_rs", "k_rsh"]

/-- `fit_pvefficiency_adr`, pvlib/pvarray.py:141-227; `curveFit model xdata ydata options` is `curve_fit(…)[0]`.  Both forms of the
output: the array and the dict. -/
def fitAdr (curveFit : (Fl × Fl → List Fl → Except PyErr Fl) → List (Fl × Fl) → List Fl → PyDict FitOption → Except PyErr (List Fl))
    (irradiance temperature eta : List Fl) (kwargs : PyDict FitOption) : Except PyErr (List Fl × List (String × Fl)) :=
  match npMax eta with
  | .error e => .error e
  | .ok eta_max =>
    match curveFit adrWrapper (irradiance.zip temperature) eta (update (defaultOptions irradiance eta_max) kwargs) with
    | .error e => .error e
    | .ok popt => .ok (popt, pNames.zip popt)

end Pvlib.Fits
end
