import Verif.Model.SdmSandia
import Verif.Model.ToolsMisc

/-! # Model of `pvlib/ivtools/sdm/desoto.py` (`fit_desoto`, `fit_desoto_batzelis`), `pvlib/ivtools/sdm/pvsyst.py`
(`pvsyst_temperature_coeff`, `fit_pvsyst_iec61853_sandia_2025`) and `pvlib/ivtools/sdm/cec.py`

`scipy.optimize.root`, numpy's least squares and PySAM are third-party and enter as parameters. -/

noncomputable section
open scoped Classical
namespace Pvlib.Sdm
open Fl Pvlib.Tools Pvlib.SingleDiode Pvlib.PvFunctions

/-! ### `fit_desoto` -/

/-- The five unknowns, in the order of `params`, pvlib/ivtools/sdm/desoto.py:118, 187. -/
structure Unknowns where
  (IL Io Rs Rsh a : Fl)

/-- `specs`, pvlib/ivtools/sdm/desoto.py:137-138, 184. -/
structure Specs where
  (Isc Voc Imp Vmp beta_oc alpha_sc EgRef dEgdT Tref k : Fl)

/-- `_system_of_equations_desoto`, pvlib/ivtools/sdm/desoto.py:164-217. -/
def desotoSystem (s : Specs) (p : Unknowns) : List Fl :=
  let y0 := s.Isc - p.IL + p.Io * expm1 (s.Isc * p.Rs / p.a) + s.Isc * p.Rs / p.Rsh
  let y1 := (-p.IL) + p.Io * expm1 (s.Voc / p.a) + s.Voc / p.Rsh
  let y2 := s.Imp - p.IL + p.Io * expm1 ((s.Vmp + s.Imp * p.Rs) / p.a) + (s.Vmp + s.Imp * p.Rs) / p.Rsh
  let y3 := s.Imp - s.Vmp * (p.Io / p.a * Fl.exp ((s.Vmp + s.Imp * p.Rs) / p.a) + 1 / p.Rsh)
    / (1 + p.Io * p.Rs / p.a * Fl.exp ((s.Vmp + s.Imp * p.Rs) / p.a) + p.Rs / p.Rsh)
  let T2 := s.Tref + 2
  let Voc2 := (T2 - s.Tref) * s.beta_oc + s.Voc
  let a2 := p.a * T2 / s.Tref
  let IL2 := p.IL + s.alpha_sc * (T2 - s.Tref)
  let Eg2 := s.EgRef * (1 + s.dEgdT * (T2 - s.Tref))
  let Io2 := p.Io * (T2 / s.Tref) ^ 3 * Fl.exp (1 / s.k * (s.EgRef / s.Tref - Eg2 / T2))
  let y4 := (-IL2) + Io2 * expm1 (Voc2 / a2) + Voc2 / p.Rsh
  [y0, y1, y2, y3, y4]

/-- The default starting values, pvlib/ivtools/sdm/desoto.py:113-125. -/
def desotoStart (v_mp i_mp v_oc i_sc cells_in_series temp_ref : Fl) : Unknowns :=
  let Tref := temp_ref + fin 273.15
  let a_0 := fin 1.5 * fin kEV * Tref * cells_in_series
  let Io_0 := i_sc * Fl.exp (-v_oc / a_0)
  ⟨i_sc, Io_0, (a_0 * log1p ((i_sc - i_mp) / Io_0) - v_mp) / i_mp, 100, a_0⟩

/-- One entry of `init_guess`, pvlib/ivtools/sdm/desoto.py:127-132. -/
def guessStep (u : Unknowns) (key : String) (x : Fl) : Except PyErr Unknowns :=
  if key = "IL_0" then .ok { u with IL := x }
  else if key = "Io_0" then .ok { u with Io := x }
  else if key = "Rs_0" then .ok { u with Rs := x }
  else if key = "Rsh_0" then .ok { u with Rsh := x }
  else if key = "a_0" then .ok { u with a := x }
  else .error .valueError

/-- The loop over `init_guess`, pvlib/ivtools/sdm/desoto.py:127-132. -/
def applyGuess (u : Unknowns) : PyDict Fl → Except PyErr Unknowns
  | [] => .ok u
  | (k, x) :: rest => match guessStep u k x with
    | .error e => .error e
    | .ok u => applyGuess u rest

/-- What `fit_desoto` returns (the first element of the pair), pvlib/ivtools/sdm/desoto.py:151-160. -/
structure DesotoModule where
  (I_L_ref I_o_ref R_s R_sh_ref a_ref alpha_sc EgRef dEgdT irrad_ref temp_ref : Fl)

/-- `fit_desoto`, pvlib/ivtools/sdm/desoto.py:16-161.  `root f x0` is `scipy.optimize.root(f, x0, **root_kwargs)`: `success` and
`x`. -/
def fitDesoto (root : (Unknowns → List Fl) → Unknowns → Bool × Unknowns)
    (v_mp i_mp v_oc i_sc alpha_sc beta_voc cells_in_series : Fl) (EgRef : Fl := fin 1.121) (dEgdT : Fl := fin (-0.0002677))
    (temp_ref : Fl := 25) (irrad_ref : Fl := 1000) (init_guess : PyDict Fl := []) : Except PyErr DesotoModule :=
  match applyGuess (desotoStart v_mp i_mp v_oc i_sc cells_in_series temp_ref) init_guess with
  | .error e => .error e
  | .ok x0 =>
    let r := root (desotoSystem ⟨i_sc, v_oc, i_mp, v_mp, beta_voc, alpha_sc, EgRef, dEgdT, temp_ref + fin 273.15, fin kEV⟩) x0
    if r.1 then .ok ⟨r.2.IL, r.2.Io, r.2.Rs, r.2.Rsh, r.2.a, alpha_sc, EgRef, dEgdT, irrad_ref, temp_ref⟩
    else .error .runtimeError

/-! ### `fit_desoto_batzelis` -/

/-- What `fit_desoto_batzelis` returns, pvlib/ivtools/sdm/desoto.py:465-472. -/
structure Batzelis where
  (alpha_sc a_ref I_L_ref I_o_ref R_sh_ref R_s : Fl)

/-- `fit_desoto_batzelis`, pvlib/ivtools/sdm/desoto.py:404-472. -/
def fitDesotoBatzelis (v_mp i_mp v_oc i_sc alpha_sc beta_voc : Fl) : Batzelis :=
  let alpha := alpha_sc / i_sc
  let beta := beta_voc / v_oc
  let t0 := fin 298.15
  let del0 := (1 - beta * t0) / (fin 50.1 - alpha * t0)
  let w0 := lambertwPvlib (Fl.exp (1 / del0 + 1))
  let a0 := del0 * v_oc
  let Rs0 := (a0 * (w0 - 1) - v_mp) / i_mp
  let Rsh0 := a0 * (w0 - 1) / (i_sc * (1 - 1 / w0) - i_mp)
  let Iph0 := (1 + Rs0 / Rsh0) * i_sc
  let Isat0 := Iph0 * Fl.exp (-1 / del0)
  ⟨alpha * i_sc, a0, Iph0, Isat0, Rsh0, Rs0⟩

/-! ### `pvsyst_temperature_coeff` -/

/-- `_first_order_centered_difference`, pvlib/tools.py:510-514, for a function that may raise. -/
def centeredDifference (f : Fl → Except PyErr Fl) (x0 dx : Fl) : Except PyErr Fl :=
  match f (x0 + dx) with
  | .error e => .error e
  | .ok b => match f (x0 - dx) with
    | .error e => .error e
    | .ok a => .ok ((b - a) / 2 / dx)

/-- `DX = EPS**(1/3)`, pvlib/tools.py:506-507: the real cube root of 2^-52. -/
def DX : Fl := fin ((2 : ℝ) ^ (-(52 : ℝ) / 3))

/-- `maxp`, pvlib/ivtools/sdm/pvsyst.py:294-302. -/
def maxp (s : Solvers) (alpha_sc gamma_ref mu_gamma I_L_ref I_o_ref R_sh_ref R_sh_0 R_s cells_in_series R_sh_exp EgRef irrad_ref
    temp_ref : Fl) (temp_cell : Fl) : Except PyErr Fl :=
  match bishop88Mpp s (params (calcparamsPvsyst irrad_ref temp_cell alpha_sc gamma_ref mu_gamma I_L_ref I_o_ref R_sh_ref R_sh_0 R_s
      cells_in_series R_sh_exp EgRef irrad_ref temp_ref)) with
  | .error e => .error e
  | .ok r => .ok r.p

/-- `pvsyst_temperature_coeff`, pvlib/ivtools/sdm/pvsyst.py:224-310. -/
def pvsystTemperatureCoeff (s : Solvers) (alpha_sc gamma_ref mu_gamma I_L_ref I_o_ref R_sh_ref R_sh_0 R_s cells_in_series : Fl)
    (R_sh_exp : Fl := fin 5.5) (EgRef : Fl := fin 1.121) (irrad_ref : Fl := 1000) (temp_ref : Fl := 25) : Except PyErr Fl :=
  let f := maxp s alpha_sc gamma_ref mu_gamma I_L_ref I_o_ref R_sh_ref R_sh_0 R_s cells_in_series R_sh_exp EgRef irrad_ref temp_ref
  match f temp_ref with
  | .error e => .error e
  | .ok pmp => match centeredDifference f temp_ref DX with
    | .error e => .error e
    | .ok g => .ok (g / pmp)

/-! ### `fit_pvsyst_iec61853_sandia_2025` -/

/-- One row of the matrix of measurements. (Used for pvlib/ivtools/sdm/pvsyst.py:494-527.) -/
structure Meas where
  (g t i_sc v_oc i_mp v_mp : Fl)

/-- `np.isclose(x, ref, rtol=0, atol=tol)`. (Used for pvlib/ivtools/sdm/pvsyst.py:313-483.) -/
def isClose (x ref tol : Fl) : Prop := Fl.abs (x - ref) ≤ tol

/-- `_fit_tempco_pvsyst_iec61853_sandia_2025`, pvlib/ivtools/sdm/pvsyst.py:486-491 (`Polynomial.fit(x, y, deg=1)` is a
least-squares line, as `polyfit1`). -/
def fitTempco (lib : Sde.LinLib) (pts : List (Fl × Fl)) : Fl :=
  let f := lib.polyfit1 pts
  f.1 / (f.2 + f.1 * 25)

/-- `_fit_shunt_resistances_pvsyst_iec61853_sandia_2025`, pvlib/ivtools/sdm/pvsyst.py:494-527: `(Rshref, Rsh0)` (`Rshexp` is 5.5). -/
def fitShunt (lib : Sde.LinLib) (ms : List Meas) (beta_mp coeff min_irradiance : Fl) : Fl × Fl :=
  let f := lib.polyfit1 ((ms.filter fun m => min_irradiance ≤ m.g).map fun m =>
    (Fl.exp (fin (-5.5) * m.g / 1000), m.v_mp / (1 + beta_mp * (m.t - 25)) / (coeff * (m.i_sc - m.i_mp))))
  let base := f.2
  let Rsh0 := f.1 + base
  let e := Fl.exp (fin (-5.5))
  (base * (1 - e) + Rsh0 * e, Rsh0)

/-- `_fit_series_resistance_pvsyst_iec61853_sandia_2025`, pvlib/ivtools/sdm/pvsyst.py:530-539. -/
def fitSeries (lib : Sde.LinLib) (ms : List Meas) : Fl :=
  (lib.lstsq (ms.map fun m => ([1, m.i_mp, Fl.log m.i_mp, m.v_mp], m.v_oc))).getD 1 nan

/-- `_fit_diode_ideality_factor_pvsyst_iec61853_sandia_2025`, pvlib/ivtools/sdm/pvsyst.py:542-559 (`mu_gamma` is 0). -/
def fitGamma (lib : Sde.LinLib) (ms : List Meas) (R_sh_ref R_sh_0 R_sh_exp R_s cells_in_series : Fl) : Fl :=
  (lib.lstsq (ms.map fun m =>
    let NsVth := pvsystNNsVth m.t 1 cells_in_series
    let Rsh := pvsystRsh m.g R_sh_ref R_sh_0 R_sh_exp
    let term1 := m.i_sc * (1 + R_s / Rsh) - m.v_oc / Rsh
    let term2 := (m.i_sc - m.i_mp) * (1 + R_s / Rsh) - m.v_mp / Rsh
    ([NsVth * Fl.log (term2 / term1)], m.v_mp + m.i_mp * R_s - m.v_oc))).getD 0 nan

/-- `_fit_saturation_current_pvsyst_iec61853_sandia_2025`, pvlib/ivtools/sdm/pvsyst.py:562-577. -/
def fitSaturation (ms : List Meas) (gamma_ref mu_gamma R_sh_ref R_sh_0 R_sh_exp R_s cells_in_series EgRef : Fl) : Fl :=
  Fl.exp (meanOf (ms.map fun m =>
    let R_sh := pvsystRsh m.g R_sh_ref R_sh_0 R_sh_exp
    let gamma := pvsystGamma m.t gamma_ref mu_gamma
    let nNsVth := pvsystNNsVth m.t gamma cells_in_series
    let I_o_est := (m.i_sc * (1 + R_s / R_sh) - m.v_oc / R_sh) / expm1 (m.v_oc / nNsVth)
    Fl.log I_o_est - Fl.log (pvsystIo m.t gamma 1 EgRef)))

/-- `_fit_photocurrent_pvsyst_iec61853_sandia_2025`, pvlib/ivtools/sdm/pvsyst.py:580-597. -/
def fitPhotocurrent (lib : Sde.LinLib) (ms : List Meas) (alpha_sc gamma_ref mu_gamma I_o_ref R_sh_ref R_sh_0 R_sh_exp R_s
    cells_in_series EgRef : Fl) : Fl :=
  (lib.lstsq (ms.map fun m =>
    let R_sh := pvsystRsh m.g R_sh_ref R_sh_0 R_sh_exp
    let gamma := pvsystGamma m.t gamma_ref mu_gamma
    let I_o := pvsystIo m.t gamma I_o_ref EgRef
    let nNsVth := pvsystNNsVth m.t gamma cells_in_series
    let I_L_est := m.i_sc + I_o * expm1 (m.i_sc * R_s / nNsVth) + m.i_sc * R_s / R_sh
    ([m.g / 1000], I_L_est - m.g / 1000 * alpha_sc * (m.t - 25)))).getD 0 nan

/-- The quotient of Eq. 21, pvlib/ivtools/sdm/pvsyst.py:604-622. -/
def gammaEst (m : Meas) (alpha_sc I_L_ref I_o_ref R_sh_ref R_sh_0 R_sh_exp R_s cells_in_series EgRef : Fl) : Fl :=
  let Rsh := pvsystRsh m.g R_sh_ref R_sh_0 R_sh_exp
  let I_L := pvsystIL m.g m.t I_L_ref alpha_sc
  let NsVth := pvsystNNsVth m.t 1 cells_in_series
  let Tref_K := 25 + fin 273.15
  let Tcell_K := m.t + fin 273.15
  let numerator := fin qe * EgRef / fin kB * (1 / Tref_K - 1 / Tcell_K) + (m.v_mp + m.i_mp * R_s) / NsVth
  let denominator := Fl.log ((I_L - m.i_mp - (m.v_mp + m.i_mp * R_s) / Rsh) / I_o_ref) - 3 * Fl.log (Tcell_K / Tref_K)
  numerator / denominator

/-- `_fit_diode_ideality_factor_post_pvsyst_iec61853_sandia_2025`, pvlib/ivtools/sdm/pvsyst.py:600-630. -/
def fitGammaPost (lib : Sde.LinLib) (ms : List Meas) (alpha_sc I_L_ref I_o_ref R_sh_ref R_sh_0 R_sh_exp R_s cells_in_series
    EgRef : Fl) : Fl × Fl :=
  let x := lib.lstsq (ms.map fun m =>
    ([1, m.t - 25], gammaEst m alpha_sc I_L_ref I_o_ref R_sh_ref R_sh_0 R_sh_exp R_s cells_in_series EgRef))
  (x.getD 0 nan, x.getD 1 nan)

/-- The returned dict, pvlib/ivtools/sdm/pvsyst.py:470-482. -/
structure PvsystModule where
  (alpha_sc gamma_ref mu_gamma I_L_ref I_o_ref R_sh_ref R_sh_0 R_sh_exp R_s cells_in_series EgRef : Fl)

/-- `fit_pvsyst_iec61853_sandia_2025`, pvlib/ivtools/sdm/pvsyst.py:313-483.  `.item()` of an array whose size is not 1 raises
ValueError (line 432), and so does `Polynomial.fit` of no points. -/
def fitIec (lib : Sde.LinLib) (ms : List Meas) (cells_in_series : Fl) (EgRef : Fl := fin 1.121) (alpha_sc beta_mp R_s : Option Fl := none)
    (r_sh_coeff : Fl := fin 0.12) (min_Rsh_irradiance : Option Fl := none) (irradiance_tolerance : Fl := 20)
    (temperature_tolerance : Fl := 1) : Except PyErr PvsystModule :=
  let gStc := ms.filter fun m => isClose m.g 1000 irradiance_tolerance
  let tStc := ms.filter fun m => isClose m.t 25 temperature_tolerance
  let stc := gStc.filter fun m => isClose m.t 25 temperature_tolerance
  let alpha : Except PyErr Fl := match alpha_sc with
    | some a => .ok a
    | none => match stc with
      | [m] => .ok (fitTempco lib (gStc.map fun m => (m.t, m.i_sc)) * m.i_sc)
      | _ => .error .valueError
  match alpha with
  | .error e => .error e
  | .ok alpha =>
    if (beta_mp = none ∧ gStc = []) ∨ (ms.filter fun m => min_Rsh_irradiance.getD 0 ≤ m.g) = [] then .error .valueError else
    let beta := beta_mp.getD (fitTempco lib (gStc.map fun m => (m.t, m.v_mp)))
    let sh := fitShunt lib ms beta r_sh_coeff (min_Rsh_irradiance.getD 0)
    let rs := R_s.getD (fitSeries lib ms)
    let gamma := fitGamma lib tStc sh.1 sh.2 (fin 5.5) rs cells_in_series
    let io := fitSaturation ms gamma 0 sh.1 sh.2 (fin 5.5) rs cells_in_series EgRef
    let il := fitPhotocurrent lib ms alpha gamma 0 io sh.1 sh.2 (fin 5.5) rs cells_in_series EgRef
    let post := fitGammaPost lib ms alpha il io sh.1 sh.2 (fin 5.5) rs cells_in_series EgRef
    .ok ⟨alpha, post.1, post.2, il, io, sh.1, sh.2, fin 5.5, rs, cells_in_series, EgRef⟩

/-! ### `fit_cec_sam` -/

/-- A value of the dict given to or returned by SAM. (Used for pvlib/ivtools/sdm/cec.py:2-93.) -/
inductive SamVal where
  | num (x : Fl)
  | str (s : String)
  | none

/-- `[result[k] for k in keys]`, pvlib/ivtools/sdm/cec.py:90. -/
def takeKeys (d : PyDict Fl) : List String → Except PyErr (List Fl)
  | [] => .ok []
  | k :: ks => match d.get? k with
    | none => .error (.keyError k)
    | some x => match takeKeys d ks with
      | .error e => .error e
      | .ok xs => .ok (x :: xs)

/-- `fit_cec_sam`, pvlib/ivtools/sdm/cec.py:2-93.  `pysam` is `PySSC.ssc_sim_from_dict`, absent if the package is; a missing key
of its result raises KeyError.  (ImportError is not distinguished: `none` result of the outer option.) -/
def fitCecSam (pysam : Option (PyDict SamVal → PyDict Fl)) (celltype : String)
    (v_mp i_mp v_oc i_sc alpha_sc beta_voc gamma_pmp cells_in_series : Fl) (temp_ref : Fl := 25) :
    Option (Except PyErr (List Fl)) :=
  match pysam with
  | none => none
  | some f =>
    let result := f [("tech_model", .str "6parsolve"), ("financial_model", .none), ("celltype", .str celltype), ("Vmp", .num v_mp),
      ("Imp", .num i_mp), ("Voc", .num v_oc), ("Isc", .num i_sc), ("alpha_isc", .num alpha_sc), ("beta_voc", .num beta_voc),
      ("gamma_pmp", .num gamma_pmp), ("Nser", .num cells_in_series), ("Tref", .num temp_ref)]
    match result.get? "cmod_success" with
    | none => some (.error (.keyError "cmod_success"))
    | some c =>
      if c = 1 then some (takeKeys result ["Il", "Io", "Rs", "Rsh", "a", "Adj"])
      else some (.error .runtimeError)

end Pvlib.Sdm
end
