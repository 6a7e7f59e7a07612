import Verif.Model.Tools

/-! # Model of `pvlib/inverter.py` and `pvlib/transformer.py` -/

noncomputable section
open scoped Classical
namespace Pvlib.Inverter
open Fl

/-- The `inverter` dict of the Sandia model (pvlib/inverter.py:22-29, 127-129). -/
structure SandiaParams where
  (Paco Pdco Vdco Pso C0 C1 C2 C3 Pnt : Fl)

/-- `_sandia_eff`, pvlib/inverter.py:18-35. -/
def sandiaEff (v_dc p_dc : Fl) (q : SandiaParams) : Fl :=
  let A := q.Pdco * (1 + q.C1 * (v_dc - q.Vdco))
  let B := q.Pso * (1 + q.C2 * (v_dc - q.Vdco))
  let C := q.C0 * (1 + q.C3 * (v_dc - q.Vdco))
  (q.Paco / (A - B) - C * (A - B)) * (p_dc - B) + C * (p_dc - B) ^ 2

/-- `_sandia_limits`, pvlib/inverter.py:38-50, on one element (the masked assignment and the
scalar `if` do the same thing). -/
def sandiaLimits (power_ac p_dc Paco Pnt Pso : Fl) : Fl :=
  let power_ac := minimum Paco power_ac
  let min_ac_power := -1 * Fl.abs Pnt
  if p_dc < Pso then min_ac_power else power_ac

/-- `sandia`, pvlib/inverter.py:53-137 (per element; the Series re-wrapping is dropped). -/
def sandia (v_dc p_dc : Fl) (q : SandiaParams) : Fl :=
  sandiaLimits (sandiaEff v_dc p_dc q) p_dc q.Paco q.Pnt q.Pso

/-- The accumulation loop of `sandia_multi`, pvlib/inverter.py:195-198. -/
def sandiaMultiLoop (power_dc : Fl) (q : SandiaParams) (vps : List (Fl × Fl)) (acc : Fl) : Fl :=
  vps.foldl (fun acc vp => acc + vp.2 / power_dc * sandiaEff vp.1 power_dc q) acc

/-- `sandia_multi`, pvlib/inverter.py:140-201 (per element of the series; the tuples over MPPT
inputs are lists). -/
def sandiaMulti (v_dc p_dc : List Fl) (q : SandiaParams) : Except PyErr Fl :=
  if p_dc.length ≠ v_dc.length then .error .valueError
  else
    let power_dc := Fl.sum p_dc
    let power_ac := sandiaMultiLoop power_dc q (v_dc.zip p_dc) (0 * power_dc)
    .ok (sandiaLimits power_ac power_dc q.Paco q.Pnt q.Pso)

/-- The `inverter` dict of the ADR model, pvlib/inverter.py:285-294. -/
structure AdrParams where
  (Pnom Vnom Pacmax Pnt : Fl)
  ADRCoefficients : List Fl
  (Vmax Vmin Vdcmax MPPTHi MPPTLow : Fl)

/-- `np.nanmax` of a list: the maximum of the entries that are not NaN; NaN if there are none. (Used for pvlib/inverter.py:204-333.) -/
def nanmax : List Fl → Fl
  | [] => nan
  | x :: xs =>
      let m := nanmax xs
      if x = nan then m else if m = nan then x else maximum x m

/-- The polynomial terms of `adr`, pvlib/inverter.py:304-312. -/
def adrPoly (pdc vdc : Fl) : List Fl :=
  [pdc ^ 0, pdc, pdc ^ 2, vdc - 1, pdc * (vdc - 1), pdc ^ 2 * (vdc - 1),
   1 / vdc - 1, pdc * (1 / vdc - 1), pdc ^ 2 * (1 / vdc - 1)]

/-- `adr`, pvlib/inverter.py:204-333 (per element). -/
def adr (v_dc p_dc : Fl) (q : AdrParams) (vtol : Fl := 0.10) : Fl :=
  let v_lim_upper := nanmax [q.Vmax, q.Vdcmax, q.MPPTHi] * (1 + vtol)
  let v_lim_lower := nanmax [q.Vmin, q.MPPTLow] * (1 - vtol)
  let pdc := p_dc / q.Pnom
  let vdc := v_dc / q.Vnom
  let p_loss := Fl.sum (List.zipWith (· * ·) q.ADRCoefficients (adrPoly pdc vdc))
  let power_ac := q.Pnom * (pdc - p_loss)
  let p_nt := -1 * Fl.abs q.Pnt
  let power_ac := npwhere (v_lim_upper < v_dc ∨ v_dc < v_lim_lower) nan power_ac
  let power_ac := npwhere (eqv vdc 0) p_nt power_ac
  let power_ac := maximum power_ac p_nt
  minimum power_ac q.Pacmax

/-- `pvwatts`, pvlib/inverter.py:336-412 (per element).  `np.divide(0.0059, zeta, out=eta,
where=pdc_neq_0)` leaves the zero of `out` where `pdc == 0`. -/
def pvwatts (pdc pdc0 : Fl) (eta_inv_nom : Fl := 0.96) (eta_inv_ref : Fl := 0.9637) : Fl :=
  let pac0 := eta_inv_nom * pdc0
  let zeta := pdc / pdc0
  let d := if ¬ eqv pdc 0 then 0.0059 / zeta else 0
  let eta := eta_inv_nom / eta_inv_ref * (-0.0162 * zeta - d + 0.9858)
  let power_ac := eta * pdc
  let power_ac := minimum pac0 power_ac
  maximum 0 power_ac

/-- `pvwatts_multi`, pvlib/inverter.py:415-445. -/
def pvwattsMulti (pdc : List Fl) (pdc0 : Fl) (eta_inv_nom : Fl := 0.96)
    (eta_inv_ref : Fl := 0.9637) : Fl :=
  pvwatts (Fl.sum pdc) pdc0 eta_inv_nom eta_inv_ref

/-- `transformer.simple_efficiency`, pvlib/transformer.py:8-120; `(x)**0.5` is numpy's. -/
def simpleEfficiency (input_power no_load_loss load_loss transformer_rating : Fl) : Fl :=
  let input_power_normalized := input_power / transformer_rating
  let a := load_loss
  let b : Fl := 1
  let c := no_load_loss - input_power_normalized
  let disc := rpow (b * b - 4 * a * c) 0.5
  let output_power_normalized := 2 * c / (-b - disc)
  output_power_normalized * transformer_rating

end Pvlib.Inverter
end
