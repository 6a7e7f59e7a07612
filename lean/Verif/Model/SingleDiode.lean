import Verif.Model.Tools
import Verif.Base.Py

/-! # Model of `pvlib/singlediode.py`, and of the Lambert W routines of `pvlib/ivtools/utils.py`

Everything is elementwise; arrays and Series differ only in the container of the result.  Root finders
(`scipy.optimize.brentq`, `newton`, `elementwise.find_root`, `find_minimum`) are parameters. -/

noncomputable section
open scoped Classical
open Real
namespace Pvlib.SingleDiode
open Fl Pvlib.Tools

/-- `np.expm1`. (Used for pvlib/singlediode.py:162-177.) -/
def expm1 : Fl → Fl
  | nan => nan
  | ninf => fin (-1)
  | fin a => fin (Real.exp a - 1)
  | pinf => pinf

/-- `np.log1p`. (Used for pvlib/ivtools/utils.py:586-606.) -/
def log1p (x : Fl) : Fl := Fl.log (1 + x)

/-- `estimate_voc`, pvlib/singlediode.py:58. -/
def estimateVoc (photocurrent saturation_current nNsVth : Fl) : Fl :=
  nNsVth * Fl.log (photocurrent / saturation_current + 1)

/-- The arguments of `bishop88` other than the diode voltage, pvlib/singlediode.py:61-64, with their defaults. -/
structure Params where
  (photocurrent saturation_current resistance_series resistance_shunt nNsVth : Fl)
  (d2mutau : Fl := 0)
  (NsVbi : Fl := pinf)
  (breakdown_factor : Fl := 0)
  (breakdown_voltage : Fl := fin (-5.5))
  (breakdown_exp : Fl := fin 3.28)

/-- `v_recomb`, pvlib/singlediode.py:163-164. -/
def vRecomb (vd : Fl) (p : Params) : Fl := npwhere (0 < p.d2mutau) (p.NsVbi - vd) pinf
/-- `i_recomb`, pvlib/singlediode.py:165. -/
def iRecomb (vd : Fl) (p : Params) : Fl := npwhere (0 < p.d2mutau) (p.photocurrent * p.d2mutau / vRecomb vd p) 0
/-- `g_sh`, pvlib/singlediode.py:168. -/
def gSh (p : Params) : Fl := 1 / p.resistance_shunt
/-- `brk_term`, pvlib/singlediode.py:170. -/
def brkTerm (vd : Fl) (p : Params) : Fl := 1 - vd / p.breakdown_voltage
/-- `i_breakdown`, pvlib/singlediode.py:171-172. -/
def iBreakdown (vd : Fl) (p : Params) : Fl :=
  p.breakdown_factor * vd * gSh p * Fl.rpow (brkTerm vd p) (-p.breakdown_exp)

/-- What `bishop88` returns, pvlib/singlediode.py:177: current, voltage, power. -/
structure Point where
  (i v p : Fl)

/-- `bishop88` with `gradients=False`, pvlib/singlediode.py:162-177. -/
def bishop88 (vd : Fl) (p : Params) : Point :=
  let v_star := vd / p.nNsVth
  let i := p.photocurrent - p.saturation_current * expm1 v_star - vd * gSh p - iRecomb vd p - iBreakdown vd p
  let v := vd - i * p.resistance_series
  ⟨i, v, i * v⟩

/-- The gradients appended with `gradients=True`, pvlib/singlediode.py:202. -/
structure Grads where
  (grad_i grad_v grad grad_p grad2p : Fl)

/-- `grad_i`, pvlib/singlediode.py:180, 182-183, 185-187, 191. -/
def gradI (vd : Fl) (p : Params) : Fl :=
  let grad_i_recomb := npwhere (0 < p.d2mutau) (iRecomb vd p / vRecomb vd p) 0
  let g_diode := p.saturation_current * Fl.exp (vd / p.nNsVth) / p.nNsVth
  let brk_pwr := Fl.rpow (brkTerm vd p) (-p.breakdown_exp)
  let brk_pwr_1 := Fl.rpow (brkTerm vd p) (-p.breakdown_exp - 1)
  let brk_fctr := p.breakdown_factor * gSh p
  let grad_i_brk := brk_fctr * (brk_pwr + vd * -p.breakdown_exp * brk_pwr_1)
  let r := -g_diode - gSh p - grad_i_recomb - grad_i_brk
  r

/-- `grad2i`, pvlib/singlediode.py:181-185, 188-190, 196. -/
def grad2I (vd : Fl) (p : Params) : Fl :=
  let grad_i_recomb := npwhere (0 < p.d2mutau) (iRecomb vd p / vRecomb vd p) 0
  let grad_2i_recomb := npwhere (0 < p.d2mutau) (2 * grad_i_recomb / vRecomb vd p) 0
  let g_diode := p.saturation_current * Fl.exp (vd / p.nNsVth) / p.nNsVth
  let brk_pwr_1 := Fl.rpow (brkTerm vd p) (-p.breakdown_exp - 1)
  let brk_pwr_2 := Fl.rpow (brkTerm vd p) (-p.breakdown_exp - 2)
  let brk_fctr := p.breakdown_factor * gSh p
  let grad2i_brk := brk_fctr * -p.breakdown_exp * (2 * brk_pwr_1 + vd * (-p.breakdown_exp - 1) * brk_pwr_2)
  let r := -g_diode / p.nNsVth - grad_2i_recomb - grad2i_brk
  r

/-- `bishop88(..., gradients=True)[3:]`, pvlib/singlediode.py:178-202. -/
def bishop88Grads (vd : Fl) (p : Params) : Grads :=
  let pt := bishop88 vd p
  let grad_i := gradI vd p
  let grad_v := 1 - grad_i * p.resistance_series
  let grad := grad_i / grad_v
  let grad_p := pt.v * grad + pt.i
  let grad2i := grad2I vd p
  let grad2v := -grad2i * p.resistance_series
  let grad2p := grad_v * grad + pt.v * (grad2i / grad_v - grad_i * grad2v / grad_v ^ 2) + grad_i
  ⟨grad_i, grad_v, grad, grad_p, grad2p⟩

/-- A bracketing root finder (`brentq`, `find_root`): function, lower and upper end; may raise. (Used for pvlib/singlediode.py:301-375.) -/
abbrev Bracket := (Fl → Fl) → Fl → Fl → Except PyErr Fl
/-- A Newton root finder: function, derivative, starting point; may raise. (Used for pvlib/singlediode.py:301-375.) -/
abbrev Newton := (Fl → Fl) → (Fl → Fl) → Fl → Except PyErr Fl

/-- The three root finders used. (Used for pvlib/singlediode.py:301-375.) -/
structure Solvers where
  (brentq : Bracket)
  (newton : Newton)
  (chandrupatla : Bracket)

/-- `xp`, pvlib/singlediode.py:318-321, 485-488, 654-657. -/
def startPoint (p : Params) : Fl :=
  let voc_est := estimateVoc p.photocurrent p.saturation_current p.nNsVth
  npwhere (voc_est < p.NsVbi) voc_est (fin 0.9999 * p.NsVbi)

/-- Solve for the diode voltage: the dispatch common to `bishop88_i_from_v` (lines 316-367), `bishop88_v_from_i`
(lines 494-538) and `bishop88_mpp` (lines 662-707): residual `f`, its derivative `f'`, Newton's start `x0`.
`method` is compared after `.lower()`; the `ImportError` for an old scipy is not modelled. (Used for pvlib/singlediode.py:301-375.) -/
def solveVd (s : Solvers) (method : String) (f f' : Fl → Fl) (x0 : Fl) (p : Params) : Except PyErr Fl :=
  let m := pyLower method
  if m = "brentq" then s.brentq f 0 (startPoint p)
  else if m = "newton" then s.newton f f' x0
  else if m = "chandrupatla" then s.chandrupatla f 0 (estimateVoc p.photocurrent p.saturation_current p.nNsVth)
  else .error .notImplementedError

/-- `bishop88_i_from_v`, pvlib/singlediode.py:301-375 (without `full_output`). -/
def bishop88IFromV (s : Solvers) (voltage : Fl) (p : Params) (method : String := "newton") : Except PyErr Fl :=
  match solveVd s method (fun x => (bishop88 x p).v - voltage) (fun x => (bishop88Grads x p).grad_v) voltage p with
  | .error e => .error e
  | .ok vd => .ok (bishop88 vd p).i

/-- `bishop88_v_from_i`, pvlib/singlediode.py:473-546 (without `full_output`). -/
def bishop88VFromI (s : Solvers) (current : Fl) (p : Params) (method : String := "newton") : Except PyErr Fl :=
  match solveVd s method (fun x => (bishop88 x p).i - current) (fun x => (bishop88Grads x p).grad_i) (startPoint p) p with
  | .error e => .error e
  | .ok vd => .ok (bishop88 vd p).v

/-- `bishop88_mpp`, pvlib/singlediode.py:642-716 (without `full_output`). -/
def bishop88Mpp (s : Solvers) (p : Params) (method : String := "newton") : Except PyErr Point :=
  match solveVd s method (fun x => (bishop88Grads x p).grad_p) (fun x => (bishop88Grads x p).grad2p) (startPoint p) p with
  | .error e => .error e
  | .ok vd => .ok (bishop88 vd p)

/-! ### Lambert W -/

/-- One step of `_log_lambertw`, pvlib/ivtools/utils.py:568. -/
def logLambertwStep (logx w : Fl) : Fl := w * (1 - Fl.log w + logx) / (1 + w)

/-- `_log_lambertw`, pvlib/ivtools/utils.py:563-569. -/
def logLambertw (logx : Fl) : Fl :=
  let w := logx - Fl.log logx
  logLambertwStep logx (logLambertwStep logx (logLambertwStep logx w))

/-- One step of the small branch of `_lambertw_pvlib`, pvlib/ivtools/utils.py:599-603. -/
def halleyStep (z g : Fl) : Fl :=
  let expg := Fl.exp g
  let g_expg_z := g * expg - z
  let g_p1 := g + 1
  g - g_expg_z * g_p1 / (expg * g_p1 ^ 2 - fin 0.5 * (g + 2) * g_expg_z)

/-- `_lambertw_pvlib`, pvlib/ivtools/utils.py:586-606 (elementwise; `NaN <= 100` is false, so NaN takes the large
branch). -/
def lambertwPvlib (x : Fl) : Fl :=
  if x ≤ 100 then
    let temp := log1p x
    let g := temp - log1p temp
    halleyStep x (halleyStep x (halleyStep x g))
  else logLambertw (Fl.log x)

/-- `_lambertw_v_from_i`, pvlib/singlediode.py:764-829.  `W` is `_lambertw_pvlib`, `LW` is `_log_lambertw`.
Exact arithmetic does not overflow, so which arguments overflow (`np.isinf(argW)`, line 808) is a parameter `ovf`. -/
def lambertwVFromI (W LW : Fl → Fl) (ovf : Fl → Prop) (I IL I0 Rs Rsh a : Fl) : Fl :=
  let Gsh := 1 / Rsh
  if 0 < Gsh then
    let argW := I0 / (Gsh * a) * Fl.exp ((-I + IL + I0) / (Gsh * a))
    let logargW := Fl.log I0 - Fl.log Gsh - Fl.log a + (-I + IL + I0) / (Gsh * a)
    let lambertwterm := if ovf argW then LW logargW else W argW
    (IL + I0 - I) / Gsh - I * Rs - a * lambertwterm
  else if eqv 0 Gsh then a * log1p ((IL - I) / I0) - I * Rs
  else nan

/-- `_lambertw_i_from_v`, pvlib/singlediode.py:839-885. -/
def lambertwIFromV (W : Fl → Fl) (V IL I0 Rs Rsh a : Fl) : Fl :=
  let Gsh := 1 / Rsh
  if 0 < Rs then
    let argW := Rs * I0 / (a * (Rs * Gsh + 1)) * Fl.exp ((Rs * (IL + I0) + V) / (a * (Rs * Gsh + 1)))
    (IL + I0 - V * Gsh) / (Rs * Gsh + 1) - (a / Rs) * W argW
  else if eqv 0 Rs then IL - I0 * expm1 (V / a) - Gsh * V
  else nan

/-- `np.linspace(0, 1, n)`, pvlib/singlediode.py:941. -/
def linspace01 (n : ℕ) : List Fl := (List.range n).map fun (k : ℕ) => if n = 1 then fin 0 else fin ((k : ℝ) / ((n : ℝ) - 1))

/-- What `_lambertw` returns. (Used for pvlib/singlediode.py:888-947.) -/
structure Curve where
  (i_sc v_oc i_mp v_mp p_mp i_x i_xx : Fl)
  (ivcurve : Option (List (Fl × Fl)))

/-- `_lambertw`, `_vmp_opt` and `_pwr_optfcn`, pvlib/singlediode.py:888-947, 950-956, 959-969.  `fmin` is `find_minimum` (or the golden section fallback) applied to
minus the power: it returns the minimiser and the minimum; the bracket it is given is `(-1, 0.8 v_oc, v_oc)`.
`ivcurve_pnts = 0` is falsy, like None. -/
def lambertw (W LW : Fl → Fl) (ovf : Fl → Prop) (fmin : (Fl → Fl) → Fl × Fl × Fl → Fl × Fl) (IL I0 Rs Rsh a : Fl)
    (ivcurve_pnts : Option ℕ := none) : Curve :=
  let cur := fun v => lambertwIFromV W v IL I0 Rs Rsh a
  let v_oc := lambertwVFromI W LW ovf 0 IL I0 Rs Rsh a
  let v_oc := if v_oc < 0 ∧ fin (-1e-12) < v_oc then 0 else v_oc
  let res := fmin (fun v => -v * cur v) (fin (-1), fin 0.8 * v_oc, v_oc)
  let v_mp := res.1
  { i_sc := cur 0, v_oc := v_oc, i_mp := cur v_mp, v_mp := v_mp, p_mp := fin (-1) * res.2,
    i_x := cur (fin 0.5 * v_oc), i_xx := cur (fin 0.5 * (v_oc + v_mp)),
    ivcurve := match ivcurve_pnts with
      | none => none
      | some 0 => none
      | some n => some ((linspace01 n).map fun t => (cur (v_oc * t), v_oc * t)) }

/-- What `batzelis` returns. (Used for pvlib/singlediode.py:1012-1043.) -/
structure BatzelisOut where
  (p_mp i_mp v_mp i_sc v_oc : Fl)

/-- `batzelis`, pvlib/singlediode.py:1012-1043. -/
def batzelis (W : Fl → Fl) (Iph Is Rs Rsh a : Fl) : BatzelisOut :=
  let isc := Iph / (Rs / Rsh + 1)
  let voc := a * Fl.log (Iph / Is)
  let w := W (fin (Real.exp 1) * Iph / Is)
  let imp := Iph * (1 - 1 / w) - a * (w - 1) / Rsh
  let vmp := a * (w - 1) - Rs * imp
  let vmp := npwhere (0 < Iph) vmp 0
  let voc := npwhere (0 < Iph) voc 0
  let imp := npwhere (0 < Iph) imp 0
  let isc := npwhere (0 < Iph) isc 0
  ⟨imp * vmp, imp, vmp, isc, voc⟩

end Pvlib.SingleDiode
end
