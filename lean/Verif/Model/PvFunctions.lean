import Verif.Model.SingleDiode
import Verif.Model.Spectrum
import Verif.Model.Iam

/-! # Model of the module-level functions of `pvlib/pvsystem.py` (lines 1551-3219)

Per element; the wrapping of results into Series / DataFrames (lines 1755-1763, 2632-2644 and the like) is not modelled. -/

noncomputable section
open scoped Classical
namespace Pvlib.PvFunctions
open Fl Pvlib.SingleDiode

/-- `constants.k`, Boltzmann constant in J/K (CODATA 2018, exact). (Used for pvlib/pvsystem.py:2041-2051.) -/
def kB : ℝ := 1.380649e-23
/-- `constants.e`, elementary charge in C (CODATA 2018, exact). (Used for pvlib/pvsystem.py:2041-2051.) -/
def qe : ℝ := 1.602176634e-19
/-- `constants.value('Boltzmann constant in eV/K')` (CODATA 2018). (Used for pvlib/pvsystem.py:1551-1753.) -/
def kEV : ℝ := 8.617333262e-05

/-- The five parameters every `calcparams_*` function returns, in order, pvlib/pvsystem.py:1753, 2007. -/
structure Five where
  (IL I0 Rs Rsh nNsVth : Fl)

/-- `calcparams_desoto`, pvlib/pvsystem.py:1551-1753. -/
def calcparamsDesoto (effective_irradiance temp_cell alpha_sc a_ref I_L_ref I_o_ref R_sh_ref R_s : Fl)
    (EgRef : Fl := fin 1.121) (dEgdT : Fl := fin (-0.0002677)) (irrad_ref : Fl := 1000) (temp_ref : Fl := 25) : Five :=
  let k := fin kEV
  let Tref_K := temp_ref + fin 273.15
  let Tcell_K := temp_cell + fin 273.15
  let E_g := EgRef * (1 + dEgdT * (Tcell_K - Tref_K))
  let nNsVth := a_ref * (Tcell_K / Tref_K)
  let IL := effective_irradiance / irrad_ref * (I_L_ref + alpha_sc * (Tcell_K - Tref_K))
  let I0 := I_o_ref * (Tcell_K / Tref_K) ^ 3 * Fl.exp (EgRef / (k * Tref_K) - E_g / (k * Tcell_K))
  let Rsh := R_sh_ref * (irrad_ref / effective_irradiance)
  ⟨IL, I0, R_s, Rsh, nNsVth⟩

/-- `calcparams_cec`, pvlib/pvsystem.py:1766-1879. -/
def calcparamsCec (effective_irradiance temp_cell alpha_sc a_ref I_L_ref I_o_ref R_sh_ref R_s Adjust : Fl)
    (EgRef : Fl := fin 1.121) (dEgdT : Fl := fin (-0.0002677)) (irrad_ref : Fl := 1000) (temp_ref : Fl := 25) : Five :=
  calcparamsDesoto effective_irradiance temp_cell (alpha_sc * (1 - Adjust / 100)) a_ref I_L_ref I_o_ref R_sh_ref R_s
    EgRef dEgdT irrad_ref temp_ref

/-- `_pvsyst_Rsh`, pvlib/pvsystem.py:2020-2029. -/
def pvsystRsh (effective_irradiance R_sh_ref R_sh_0 : Fl) (R_sh_exp : Fl := fin 5.5) (irrad_ref : Fl := 1000) : Fl :=
  let Rsh_tmp := (R_sh_ref - R_sh_0 * Fl.exp (-R_sh_exp)) / (1 - Fl.exp (-R_sh_exp))
  let Rsh_base := maximum 0 Rsh_tmp
  Rsh_base + (R_sh_0 - Rsh_base) * Fl.exp (-R_sh_exp * effective_irradiance / irrad_ref)

/-- `_pvsyst_IL`, pvlib/pvsystem.py:2032-2038. -/
def pvsystIL (effective_irradiance temp_cell I_L_ref alpha_sc : Fl) (irrad_ref : Fl := 1000) (temp_ref : Fl := 25) : Fl :=
  let Tref_K := temp_ref + fin 273.15
  let Tcell_K := temp_cell + fin 273.15
  effective_irradiance / irrad_ref * (I_L_ref + alpha_sc * (Tcell_K - Tref_K))

/-- `_pvsyst_Io`, pvlib/pvsystem.py:2041-2051. -/
def pvsystIo (temp_cell gamma I_o_ref EgRef : Fl) (temp_ref : Fl := 25) : Fl :=
  let Tref_K := temp_ref + fin 273.15
  let Tcell_K := temp_cell + fin 273.15
  I_o_ref * (Tcell_K / Tref_K) ^ 3 * Fl.exp (fin qe * EgRef / (fin kB * gamma) * (1 / Tref_K - 1 / Tcell_K))

/-- `_pvsyst_gamma`, pvlib/pvsystem.py:2054-2056. -/
def pvsystGamma (temp_cell gamma_ref mu_gamma : Fl) (temp_ref : Fl := 25) : Fl :=
  gamma_ref + mu_gamma * (temp_cell - temp_ref)

/-- `_pvsyst_nNsVth`, pvlib/pvsystem.py:2059-2065. -/
def pvsystNNsVth (temp_cell gamma cells_in_series : Fl) : Fl :=
  gamma * fin kB / fin qe * cells_in_series * (temp_cell + fin 273.15)

/-- `calcparams_pvsyst`, pvlib/pvsystem.py:1882-2007. -/
def calcparamsPvsyst (effective_irradiance temp_cell alpha_sc gamma_ref mu_gamma I_L_ref I_o_ref R_sh_ref R_sh_0 R_s
    cells_in_series : Fl) (R_sh_exp : Fl := fin 5.5) (EgRef : Fl := fin 1.121) (irrad_ref : Fl := 1000)
    (temp_ref : Fl := 25) : Five :=
  let gamma := pvsystGamma temp_cell gamma_ref mu_gamma temp_ref
  let nNsVth := pvsystNNsVth temp_cell gamma cells_in_series
  let IL := pvsystIL effective_irradiance temp_cell I_L_ref alpha_sc irrad_ref temp_ref
  let I0 := pvsystIo temp_cell gamma I_o_ref EgRef temp_ref
  let Rsh := pvsystRsh effective_irradiance R_sh_ref R_sh_0 R_sh_exp irrad_ref
  ⟨IL, I0, R_s, Rsh, nNsVth⟩

/-! ### Databases -/

/-- Where `retrieve_sam` reads from. (Used for pvlib/pvsystem.py:2157-2186.) -/
inductive SamSource where
  | internal (file : String)
  | url (path : String)
  | file (path : String)
  deriving DecidableEq

/-- `internal_dbs`, pvlib/pvsystem.py:2163-2171. -/
def internalDbs : List (String × String) :=
  [("cecmod", "sam-library-cec-modules-2019-03-05.csv"), ("sandiamod", "sam-library-sandia-modules-2015-6-30.csv"),
   ("adrinverter", "adr-library-cec-inverters-2019-03-05.csv"),
   ("cecinverter", "sam-library-cec-inverters-2019-03-05.csv"),
   ("sandiainverter", "sam-library-cec-inverters-2019-03-05.csv")]

/-- `retrieve_sam` up to the choice of the source, pvlib/pvsystem.py:2157-2186. -/
def retrieveSam (name path : Option String) : Except PyErr SamSource :=
  match name, path with
  | some _, some _ => .error .valueError
  | none, none => .error .valueError
  | some n, none => match internalDbs.lookup (pyLower n) with
      | some f => .ok (.internal f)
      | none => .error (.keyError n)
  | none, some p => if "http".toList.isPrefixOf (pyLower p).toList then .ok (.url p) else .ok (.file p)

/-- `BAD_CHARS`, pvlib/pvsystem.py:2199. -/
def badChars : List Char := [' ', '-', '.', '(', ')', '[', ']', ':', '+', '/', '"', ',']

/-- `names.str.translate(mapping)` for one name, pvlib/pvsystem.py:2200-2204. -/
def translate (name : List Char) : List Char := name.map fun c => if c ∈ badChars then '_' else c

/-- `names.duplicated().sum()`: how many names occur earlier in the list. (Used for pvlib/pvsystem.py:2190-2215.) -/
def duplicates (names : List (List Char)) : ℕ := names.length - names.dedup.length

/-- `_normalize_sam_product_names`, pvlib/pvsystem.py:2190-2215: the names and which warnings are issued (with the
number of duplicates). -/
def normalizeNames (names : List (List Char)) : List (List Char) × Option ℕ × Option ℕ :=
  let norm := names.map translate
  (norm, (if 0 < duplicates names then some (duplicates names) else none),
    (if 0 < duplicates norm then some (duplicates norm) else none))

/-! ### SAPM -/

/-- The entries of a Sandia module read by `sapm` (pvlib/pvsystem.py:2361-2402); the last six are optional. -/
structure SapmModule where
  (Isco Impo Voco Vmpo Aisc Aimp C0 C1 C2 C3 Bvmpo Mbvmp Bvoco Mbvoc N Cells_in_Series : Fl)
  (IXO C4 C5 IXXO C6 C7 : Option Fl)

/-- The result of `sapm`; `i_x`, `i_xx` may be absent. (Used for pvlib/pvsystem.py:2237-2407.) -/
structure SapmOut where
  (i_sc i_mp v_oc v_mp p_mp : Fl)
  (i_x i_xx : Option Fl)

/-- `logEe`, pvlib/pvsystem.py:2354-2368: NaN for a negative or NaN irradiance, `-inf` for zero. -/
def logEe (Ee : Fl) : Fl :=
  let l := if 0 < Ee then Fl.log Ee else nan
  if eqv Ee 0 then ninf else l

/-- `sapm`, pvlib/pvsystem.py:2237-2407. -/
def sapm (effective_irradiance temp_cell : Fl) (m : SapmModule) (temperature_ref : Fl := 25)
    (irradiance_ref : Fl := 1000) : SapmOut :=
  let Ee := effective_irradiance / irradiance_ref
  let Bvmpo := m.Bvmpo + m.Mbvmp * (1 - Ee)
  let Bvoco := m.Bvoco + m.Mbvoc * (1 - Ee)
  let delta := m.N * fin kB * (temp_cell + fin 273.15) / fin qe
  let logEe := logEe Ee
  let i_sc := m.Isco * Ee * (1 + m.Aisc * (temp_cell - temperature_ref))
  let i_mp := m.Impo * (m.C0 * Ee + m.C1 * Ee ^ 2) * (1 + m.Aimp * (temp_cell - temperature_ref))
  let v_oc := maximum 0 (m.Voco + m.Cells_in_Series * delta * logEe + Bvoco * (temp_cell - temperature_ref))
  let v_mp := maximum 0 (m.Vmpo + m.C2 * m.Cells_in_Series * delta * logEe +
    m.C3 * m.Cells_in_Series * (delta * logEe) ^ 2 + Bvmpo * (temp_cell - temperature_ref))
  let i_x := match m.IXO, m.C4, m.C5 with
    | some ixo, some c4, some c5 =>
        some (ixo * (c4 * Ee + c5 * Ee ^ 2) * (1 + m.Aisc * (temp_cell - temperature_ref)))
    | _, _, _ => none
  let i_xx := match m.IXXO, m.C6, m.C7 with
    | some ixxo, some c6, some c7 =>
        some (ixxo * (c6 * Ee + c7 * Ee ^ 2) * (1 + m.Aimp * (temp_cell - temperature_ref)))
    | _, _, _ => none
  ⟨i_sc, i_mp, v_oc, v_mp, i_mp * v_mp, i_x, i_xx⟩

/-- `sapm_effective_irradiance`, pvlib/pvsystem.py:2410-2477; `A` are the air mass coefficients, `B` the angle ones. -/
def sapmEffectiveIrradiance (poa_direct poa_diffuse airmass_absolute aoi A0 A1 A2 A3 A4 B0 B1 B2 B3 B4 B5 FD : Fl) : Fl :=
  let F1 := Spectrum.sapmFactor airmass_absolute A0 A1 A2 A3 A4
  let F2 := Iam.sapm aoi B0 B1 B2 B3 B4 B5
  F1 * (poa_direct * F2 + FD * poa_diffuse)

/-! ### Single diode -/

/-- The seven characteristic points. (Used for pvlib/pvsystem.py:2480-2634.) -/
structure SevenPoints where
  (i_sc v_oc i_mp v_mp p_mp i_x i_xx : Fl)

/-- What the single diode functions call: the Lambert W routines with their overflow test, the minimiser, and the root
finders. (Used for pvlib/pvsystem.py:2480-2634.) -/
structure Numerics where
  (W LW : Fl → Fl)
  (ovf : Fl → Prop)
  (fmin : (Fl → Fl) → Fl × Fl × Fl → Fl × Fl)
  (s : Solvers)

/-- The arguments of `bishop88_*` in a call with five parameters: the others keep their defaults. (Used for pvlib/pvsystem.py:2480-2634.) -/
def params (f : Five) : Params where
  photocurrent := f.IL
  saturation_current := f.I0
  resistance_series := f.Rs
  resistance_shunt := f.Rsh
  nNsVth := f.nNsVth

/-- `singlediode`, pvlib/pvsystem.py:2480-2634. -/
def singlediode (n : Numerics) (f : Five) (method : String := "lambertw") : Except PyErr SevenPoints :=
  if pyLower method = "lambertw" then
    let o := lambertw n.W n.LW n.ovf n.fmin f.IL f.I0 f.Rs f.Rsh f.nNsVth none
    .ok ⟨o.i_sc, o.v_oc, o.i_mp, o.v_mp, o.p_mp, o.i_x, o.i_xx⟩
  else
    let p := params f
    let m := pyLower method
    match bishop88VFromI n.s 0 p m with
    | .error e => .error e
    | .ok v_oc =>
      match bishop88Mpp n.s p m with
      | .error e => .error e
      | .ok mp =>
        match bishop88IFromV n.s 0 p m with
        | .error e => .error e
        | .ok i_sc =>
          match bishop88IFromV n.s (v_oc / 2) p m with
          | .error e => .error e
          | .ok i_x =>
            match bishop88IFromV n.s ((v_oc + mp.v) / 2) p m with
            | .error e => .error e
            | .ok i_xx => .ok ⟨i_sc, v_oc, mp.i, mp.v, mp.p, i_x, i_xx⟩

/-- `max_power_point`, pvlib/pvsystem.py:2647-2709. -/
def maxPowerPoint (s : Solvers) (f : Five) (d2mutau : Fl := 0) (NsVbi : Fl := pinf) (method : String := "brentq") :
    Except PyErr Point :=
  bishop88Mpp s { params f with d2mutau := d2mutau, NsVbi := NsVbi } (pyLower method)

/-- `v_from_i`, pvlib/pvsystem.py:2712-2796. -/
def vFromI (n : Numerics) (current : Fl) (f : Five) (method : String := "lambertw") : Except PyErr Fl :=
  if pyLower method = "lambertw" then .ok (lambertwVFromI n.W n.LW n.ovf current f.IL f.I0 f.Rs f.Rsh f.nNsVth)
  else bishop88VFromI n.s current (params f) (pyLower method)

/-- `i_from_v`, pvlib/pvsystem.py:2799-2883. -/
def iFromV (n : Numerics) (voltage : Fl) (f : Five) (method : String := "lambertw") : Except PyErr Fl :=
  if pyLower method = "lambertw" then .ok (lambertwIFromV n.W voltage f.IL f.I0 f.Rs f.Rsh f.nNsVth)
  else bishop88IFromV n.s voltage (params f) (pyLower method)

/-! ### Scaling, PVWatts, losses -/

/-- A DataFrame: named columns in order (the names distinct). (Used for pvlib/pvsystem.py:2886-2918.) -/
abbrev Frame := List (String × List Fl)

/-- `data.filter(keys, axis=1)` followed by an elementwise function. (Used for pvlib/pvsystem.py:2886-2918.) -/
def filterMap (keys : List String) (g : Fl → Fl) (data : Frame) : Frame :=
  (data.filter fun c => decide (c.1 ∈ keys)).map fun c => (c.1, c.2.map g)

/-- `scale_voltage_current_power`, pvlib/pvsystem.py:2886-2918.  `df[data.columns]` raises KeyError for a column that was
filtered out (pandas lists all of them; the model names the first). -/
def scaleVoltageCurrentPower (data : Frame) (voltage : Fl := 1) (current : Fl := 1) : Except PyErr Frame :=
  let voltage_df := filterMap ["v_mp", "v_oc"] (fun x => x * voltage) data
  let current_df := filterMap ["i_mp", "i_x", "i_xx", "i_sc"] (fun x => x * current) data
  let power_df := filterMap ["p_mp"] (fun x => x * voltage * current) data
  let df := voltage_df ++ current_df ++ power_df
  match data.find? fun c => decide (df.lookup c.1 = none) with
  | some c => .error (.keyError c.1)
  | none => .ok (data.map fun c => (c.1, (df.lookup c.1).getD []))

/-- `pvwatts_dc`, pvlib/pvsystem.py:2921-3032. -/
def pvwattsDc (effective_irradiance temp_cell pdc0 gamma_pdc : Fl) (temp_ref : Fl := 25) (k : Option Fl := none)
    (cap_adjustment : Bool := false) : Fl :=
  let pdc := effective_irradiance * fin 0.001 * pdc0 * (1 + gamma_pdc * (temp_cell - temp_ref))
  match k with
  | none => pdc
  | some k =>
    let err_1 := k * (1 - (1 - effective_irradiance / 200) ^ 4)
    let err_2 := k * (1000 - effective_irradiance) / (1000 - 200)
    let err := npwhere (effective_irradiance ≤ 200) err_1 err_2
    let err := if cap_adjustment then npwhere (1000 ≤ effective_irradiance) 0 err else err
    let pdc := pdc - pdc0 * err
    npwhere (pdc < 0) 0 pdc

/-- `pvwatts_losses`, pvlib/pvsystem.py:3035-3085: `params` are the ten losses in order. -/
def pvwattsLosses (params : List Fl) : Fl :=
  let perf := params.foldl (fun perf p => perf * (1 - p / 100)) 1
  (1 - perf) * 100

/-- The defaults of `pvwatts_losses`, pvlib/pvsystem.py:3035-3037. -/
def pvwattsDefaults : List Fl := [2, 3, 0, 2, 2, fin 0.5, fin 1.5, 1, 0, 3]

/-- `dc_ohms_from_percent`, pvlib/pvsystem.py:3088-3141. -/
def dcOhmsFromPercent (vmp_ref imp_ref dc_ohmic_percent : Fl) (modules_per_string : Fl := 1) (strings : Fl := 1) : Fl :=
  let vmp := modules_per_string * vmp_ref
  let imp := strings * imp_ref
  (dc_ohmic_percent / 100) * (vmp / imp)

/-- `dc_ohmic_losses`, pvlib/pvsystem.py:3144-3177. -/
def dcOhmicLosses (resistance current : Fl) : Fl := resistance * current * current

/-- A Series with an increasing time index. (Used for pvlib/pvsystem.py:3180-3219.) -/
abbrev TimeSeries := List (ℝ × Fl)

/-- The `fill_method` of `reindex` (`'nearest'` is not modelled). (Used for pvlib/pvsystem.py:3180-3219.) -/
inductive Fill where
  | exact | ffill | bfill
  deriving DecidableEq

/-- `loss.reindex(index, method=fill_method)` at one time: the entry at that time, else the last earlier one (`ffill`), the
first later one (`bfill`), or NaN.  (Only missing labels are filled, not NaN values.) (Used for pvlib/pvsystem.py:3180-3219.) -/
def reindexAt (fill : Fill) (loss : TimeSeries) (t : ℝ) : Fl :=
  match fill with
  | .exact => ((loss.find? fun p => decide (p.1 = t)).map Prod.snd).getD nan
  | .ffill => ((loss.filter fun p => decide (p.1 ≤ t)).getLast?.map Prod.snd).getD nan
  | .bfill => ((loss.find? fun p => decide (t ≤ p.1)).map Prod.snd).getD nan

/-- `combine_loss_factors`, pvlib/pvsystem.py:3180-3219 (with at least one loss; without any, Python returns the number 0). -/
def combineLossFactors (index : List ℝ) (losses : List TimeSeries) (fill : Fill := .ffill) : TimeSeries :=
  index.map fun t => (t, 1 - losses.foldl (fun acc loss => acc * (1 - reindexAt fill loss t)) 1)

end Pvlib.PvFunctions
end
