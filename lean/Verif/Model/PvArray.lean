import Verif.Model.ToolsMisc

/-! # Model of `pvlib/pvarray.py` and of `pvlib/albedo.py:inland_water_dvoracek` -/

noncomputable section
open scoped Classical
namespace Pvlib.PvArray
open Fl Pvlib.Tools

/-- `pvefficiency_adr`, pvlib/pvarray.py:18-138 (`exp10(x)` is `10 ** x`). -/
def pvefficiencyAdr (effective_irradiance temp_cell k_a k_d tc_d k_rs k_rsh : Fl) : Fl :=
  let s := effective_irradiance / 1000
  let dt := temp_cell - 25
  let s_o := rpow 10 (k_d + dt * tc_d)
  let s_o_ref := rpow 10 k_d
  let v := Fl.log (s / s_o + 1)
  let v := v / Fl.log (1 / s_o_ref + 1)
  k_a * ((1 + k_rs + k_rsh) * v - k_rs * s - k_rsh * v ^ 2)

/-- The six coefficients of the Huld model. (Used for pvlib/pvarray.py:256-261.) -/
structure HuldK where
  k1 : Fl
  k2 : Fl
  k3 : Fl
  k4 : Fl
  k5 : Fl
  k6 : Fl

/-- `huld_params` for `pvgis5`, pvlib/pvarray.py:256-261. -/
def huldPvgis5 : PyDict HuldK :=
  [("csi", ⟨-0.017237, -0.040465, -0.004702, 0.000149, 0.000170, 0.000005⟩),
   ("cis", ⟨-0.005554, -0.038724, -0.003723, -0.000905, -0.001256, 0.000001⟩),
   ("cdte", ⟨-0.046689, -0.072844, -0.002262, 0.000276, 0.000159, -0.000006⟩)]

/-- `huld_params` for `pvgis6`, pvlib/pvarray.py:264-269. -/
def huldPvgis6 : PyDict HuldK :=
  [("csi", ⟨-0.0067560, -0.016444, -0.003015, -0.000045, -0.000043, 0⟩),
   ("cis", ⟨-0.011001, -0.029734, -0.002887, 0.000217, -0.000163, 0⟩),
   ("cdte", ⟨-0.020644, -0.035136, -0.003406, 0.000073, -0.000141, 0.000002⟩)]

/-- `tuple([x*pdc0 for x in ...])`, pvlib/pvarray.py:273. -/
def HuldK.scale (k : HuldK) (pdc0 : Fl) : HuldK :=
  ⟨k.k1 * pdc0, k.k2 * pdc0, k.k3 * pdc0, k.k4 * pdc0, k.k5 * pdc0, k.k6 * pdc0⟩

/-- `_infer_k_huld`, pvlib/pvarray.py:230-274. -/
def inferKHuld (cell_type : String) (pdc0 : Fl) (k_version : String) : Except PyErr HuldK :=
  let pick (params : PyDict HuldK) : Except PyErr HuldK :=
    match params.get? (pyLower cell_type) with
    | some k => .ok (k.scale pdc0)
    | none => .error (.keyError (pyLower cell_type))
  if pyLower k_version = "pvgis5" then pick huldPvgis5
  else if pyLower k_version = "pvgis6" then pick huldPvgis6
  else .error .valueError

/-- `np.log(g, out=full(fill), where=g > 0)`. (Used for pvlib/pvarray.py:385-397.) -/
def logWhere (g fill : Fl) : Fl := if 0 < g then Fl.log g else fill

/-- The power formula of `huld`, pvlib/pvarray.py:385-397. -/
def huldPower (effective_irradiance temp_mod pdc0 : Fl) (k : HuldK) : Fl :=
  let gprime := effective_irradiance / 1000
  let tprime := temp_mod - 25
  let logGprime := logWhere gprime 0
  gprime * (pdc0 + k.k1 * logGprime + k.k2 * logGprime ^ 2 + k.k3 * tprime + k.k4 * tprime * logGprime +
    k.k5 * tprime * logGprime ^ 2 + k.k6 * tprime ^ 2)

/-- `huld`, pvlib/pvarray.py:277-398. -/
def huld (effective_irradiance temp_mod pdc0 : Fl) (k : Option HuldK := none)
    (cell_type : Option String := none) (k_version : String := "pvgis5") : Except PyErr Fl :=
  match k with
  | some k => .ok (huldPower effective_irradiance temp_mod pdc0 k)
  | none =>
    match cell_type with
    | none => .error .valueError
    | some ct =>
      match inferKHuld ct pdc0 k_version with
      | .error e => .error e
      | .ok k => .ok (huldPower effective_irradiance temp_mod pdc0 k)

/-- The outputs of `batzelis`. (Used for pvlib/pvarray.py:401-526.) -/
structure BatzelisOut where
  p_mp : Fl
  i_mp : Fl
  v_mp : Fl
  i_sc : Fl
  v_oc : Fl

/-- `batzelis`, pvlib/pvarray.py:401-526.  `W` is `ivtools.utils._lambertw_pvlib`, an arbitrary function
here.  (`1/del0` with `del0 = 0` is inf, as for numpy floats.) -/
def batzelis (W : Fl → Fl) (effective_irradiance temp_cell v_mp i_mp v_oc i_sc alpha_sc beta_voc : Fl) :
    BatzelisOut :=
  let alpha_sc := alpha_sc / i_sc
  let beta_voc := beta_voc / v_oc
  let t0 : Fl := 298.15
  let delT := temp_cell - (t0 - 273.15)
  let lamT := (temp_cell + 273.15) / t0
  let g := effective_irradiance / 1000
  let lnG := logWhere g (-9e9)
  let lnG := npwhere (isfinite g) lnG nan
  let del0 := (1 - beta_voc * t0) / (50.1 - alpha_sc * t0)
  let w0 := W (Fl.exp (1 / del0 + 1))
  let alpha_imp := alpha_sc + (beta_voc - 1 / t0) / (w0 - 1)
  let beta_vmp := (v_oc / v_mp) * (beta_voc / (1 + del0) + (del0 * (w0 - 1) - 1 / (1 + del0)) / t0)
  let eps0 := (del0 / (1 + del0)) * (v_oc / v_mp)
  let eps1 := del0 * (w0 - 1) * (v_oc / v_mp) - 1
  let isc := g * i_sc * (1 + alpha_sc * delT)
  let voc := v_oc * (1 + del0 * lamT * lnG + beta_voc * delT)
  let imp := g * i_mp * (1 + alpha_imp * delT)
  let vmp := v_mp * (1 + eps0 * lamT * lnG + eps1 * (1 - g) + beta_vmp * delT)
  let vmp := maximum vmp 0
  let voc := maximum voc 0
  ⟨vmp * imp, imp, vmp, isc, voc⟩

end Pvlib.PvArray

namespace Pvlib.Albedo
open Fl Pvlib.Tools

/-- `WATER_COLOR_COEFFS`, pvlib/albedo.py:29-36. -/
def waterColor : PyDict Fl :=
  [("clear_water_no_waves", 0.13), ("clear_water_ripples_up_to_2.5cm", 0.16),
   ("clear_water_ripples_larger_than_2.5cm_occasional_whitecaps", 0.23),
   ("clear_water_frequent_whitecaps", 0.3), ("green_water_ripples_up_to_2.5cm", 0.22),
   ("muddy_water_no_waves", 0.19)]

/-- `WATER_ROUGHNESS_COEFFS`, pvlib/albedo.py:38-45. -/
def waterRoughness : PyDict Fl :=
  [("clear_water_no_waves", 0.29), ("clear_water_ripples_up_to_2.5cm", 0.7),
   ("clear_water_ripples_larger_than_2.5cm_occasional_whitecaps", 1.25),
   ("clear_water_frequent_whitecaps", 2), ("green_water_ripples_up_to_2.5cm", 0.7),
   ("muddy_water_no_waves", 0.29)]

/-- The formula of `inland_water_dvoracek`, pvlib/albedo.py:159-163. -/
def dvoracekFormula (solar_elevation color_coeff wave_roughness_coeff : Fl) : Fl :=
  let solar_elevation_positive := npwhere (solar_elevation < 0) 0 solar_elevation
  rpow color_coeff (wave_roughness_coeff * sind solar_elevation_positive + 1)

/-- `inland_water_dvoracek`, pvlib/albedo.py:48-168. -/
def inlandWaterDvoracek (solar_elevation : Fl) (surface_condition : Option String := none)
    (color_coeff wave_roughness_coeff : Option Fl := none) : Except PyErr Fl :=
  match surface_condition, color_coeff, wave_roughness_coeff with
  | some sc, none, none =>
    match waterColor.get? sc with
    | none => .error (.keyError sc)
    | some c =>
      match waterRoughness.get? sc with
      | none => .error (.keyError sc)
      | some w => .ok (dvoracekFormula solar_elevation c w)
  | none, some c, some w => .ok (dvoracekFormula solar_elevation c w)
  | _, _, _ => .error .valueError

end Pvlib.Albedo
end
