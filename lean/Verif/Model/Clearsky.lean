import Verif.Base.Lemmas
import Verif.Base.Series
import Verif.Model.Tools
import Verif.Model.ToolsMisc
import Verif.Model.Atmosphere
import Verif.Model.Temperature

/-! # pvlib/clearsky.py

Clear-sky irradiance models, the Linke turbidity look-up, and clear-sky detection.  The HDF5 file of turbidities is a parameter. -/

noncomputable section
open scoped Classical
open Real
namespace Pvlib.Clearsky
open Fl Pvlib.Tools

/-- `np.fmax`: the larger one, ignoring NaN. (Used for pvlib/clearsky.py:19-149.) -/
def fmax (a b : Fl) : Fl := if a = nan then b else if b = nan then a else maximum a b
/-- `np.fmin`: the smaller one, ignoring NaN. (Used for pvlib/clearsky.py:19-149.) -/
def fmin (a b : Fl) : Fl := if a = nan then b else if b = nan then a else minimum a b

/-- The columns all clear-sky models return. (Used for pvlib/clearsky.py:19-149.) -/
structure Irr where
  (ghi dni dhi : Fl)

/-- `ineichen`, pvlib/clearsky.py:19-149, per element. -/
def ineichen (apparent_zenith airmass_absolute linke_turbidity : Fl) (altitude : Fl := 0) (dni_extra : Fl := 1364)
    (perez_enhancement : Bool := false) : Irr :=
  let cos_zenith := maximum (cosd apparent_zenith) 0
  let tl := linke_turbidity
  let fh1 := Fl.exp (-altitude / 8000)
  let fh2 := Fl.exp (-altitude / 1250)
  let cg1 := fin 5.09e-05 * altitude + fin 0.868
  let cg2 := fin 3.92e-05 * altitude + fin 0.0387
  let ghi := Fl.exp (-cg2 * airmass_absolute * (fh1 + fh2 * (tl - 1)))
  let ghi := if perez_enhancement then ghi * Fl.exp (fin 0.01 * rpow airmass_absolute (fin 1.8)) else ghi
  let ghi := cg1 * dni_extra * cos_zenith * tl / tl * fmax ghi 0
  let b := fin 0.664 + fin 0.163 / fh1
  let bnci := b * Fl.exp (fin (-0.09) * airmass_absolute * (tl - 1))
  let bnci := dni_extra * fmax bnci 0
  let bnci_2 := (1 - (fin 0.1 - fin 0.2 * Fl.exp (-tl)) / (fin 0.1 + fin 0.882 / fh1)) / cos_zenith
  let bnci_2 := ghi * fmin (fmax bnci_2 0) (fin 1e20)
  let dni := minimum bnci bnci_2
  let dhi := ghi - dni * cos_zenith
  ⟨ghi, dni, dhi⟩

/-! ### Linke turbidity -/

/-- `np.interp` for increasing abscissae: linear between the points, constant beyond the ends. (Used for pvlib/clearsky.py:223-261.) -/
def npInterp : List (ℝ × ℝ) → ℝ → ℝ
  | [], _ => 0
  | [p], _ => p.2
  | p :: q :: t, x =>
    if x ≤ p.1 then p.2
    else if x < q.1 then p.2 + (q.2 - p.2) / (q.1 - p.1) * (x - p.1)
    else npInterp (q :: t) x

/-- `calendar.mdays[1:]`, with February adjusted, pvlib/clearsky.py:269-274. -/
def monthDays (leap : Bool) : List ℝ := [31, if leap then 29 else 28, 31, 30, 31, 30, 31, 31, 30, 31, 30, 31]

/-- `np.cumsum`, starting from `acc`. (Used for pvlib/clearsky.py:264-279.) -/
def cumsum (acc : ℝ) : List ℝ → List ℝ
  | [] => []
  | x :: t => (acc + x) :: cumsum (acc + x) t

/-- `_calendar_month_middles`, pvlib/clearsky.py:264-279, by whether the year is a leap year. -/
def monthMiddles (leap : Bool) : List ℝ :=
  let mdays := monthDays leap
  let ydays : ℝ := if leap then 366 else 365
  [-31 / 2] ++ List.zipWith (fun c d => c - d / 2) (cumsum 0 mdays) mdays ++ [ydays + 31 / 2]

/-- `_interpolate_turbidity` at one time, pvlib/clearsky.py:223-261: `lts` are the twelve monthly values, `dayofyear` and `isleap`
those of the time in UTC. -/
def interpolateTurbidity (lts : List ℝ) (isleap : Bool) (dayofyear : ℝ) : ℝ :=
  let lts_concat := [lts.getLastD 0] ++ lts ++ [lts.headD 0]
  npInterp ((monthMiddles isleap).zip lts_concat) dayofyear

/-- A time as far as the look-up reads it (after conversion to UTC): leap year, day of the year (from 1), month (from 1). (Used for pvlib/clearsky.py:152-220.) -/
structure Date where
  (isleap : Bool) (dayofyear : ℕ) (month : ℕ)

/-- `lookup_linke_turbidity` at one time, pvlib/clearsky.py:152-220; `grid i j` is the content of the file: twelve bytes. -/
def lookupLinke (grid : ℤ → ℤ → List ℝ) (t : Date) (latitude longitude : Fl) (interp_turbidity : Bool := true) : Except PyErr ℝ :=
  (Tools.degreesToIndex latitude "latitude").bind fun i => (Tools.degreesToIndex longitude "longitude").bind fun j =>
    let lts := grid i j
    let lt := if interp_turbidity then interpolateTurbidity lts t.isleap t.dayofyear else lts.getD (t.month - 1) 0
    .ok (lt / 20)

/-! ### Haurwitz, simplified Solis, Bird -/

/-- `haurwitz`, pvlib/clearsky.py:282-328: the `ghi` column. -/
def haurwitz (apparent_zenith : Fl) : Fl :=
  let cos_zenith := cosd apparent_zenith
  if 0 < cos_zenith then 1098 * cos_zenith * Fl.exp (fin (-0.059) / cos_zenith) else 0

/-- `_calc_i0p`, pvlib/clearsky.py:422-430. -/
def calcI0p (i0 w aod700 p : Fl) : Fl :=
  let p0 : Fl := 101325
  let io0 := fin 1.08 * rpow w (fin 0.0051)
  let i01 := fin 0.97 * rpow w (fin 0.032)
  let i02 := fin 0.12 * rpow w (fin 0.56)
  i0 * (i02 * aod700 ^ 2 + i01 * aod700 + io0 + fin 0.071 * Fl.log (p / p0))

/-- `_calc_taub`, pvlib/clearsky.py:433-442. -/
def calcTaub (w aod700 p : Fl) : Fl :=
  let p0 : Fl := 101325
  let tb1 := fin 1.82 + fin 0.056 * Fl.log w + fin 0.0071 * Fl.log w ^ 2
  let tb0 := fin 0.33 + fin 0.045 * Fl.log w + fin 0.0096 * Fl.log w ^ 2
  let tbp := fin 0.0089 * w + fin 0.13
  tb1 * aod700 + tb0 + tbp * Fl.log (p / p0)

/-- `_calc_b`, pvlib/clearsky.py:445-453. -/
def calcB (w aod700 : Fl) : Fl :=
  let b1 := fin 0.00925 * aod700 ^ 2 + fin 0.0148 * aod700 - fin 0.0172
  let b0 := fin (-0.7565) * aod700 ^ 2 + fin 0.5057 * aod700 + fin 0.4557
  b1 * Fl.log w + b0

/-- `_calc_taug`, pvlib/clearsky.py:456-464. -/
def calcTaug (w aod700 p : Fl) : Fl :=
  let p0 : Fl := 101325
  let tg1 := fin 1.24 + fin 0.047 * Fl.log w + fin 0.0061 * Fl.log w ^ 2
  let tg0 := fin 0.27 + fin 0.043 * Fl.log w + fin 0.0090 * Fl.log w ^ 2
  let tgp := fin 0.0079 * w + fin 0.1
  tg1 * aod700 + tg0 + tgp * Fl.log (p / p0)

/-- `_calc_g`, pvlib/clearsky.py:467-472. -/
def calcG (w aod700 : Fl) : Fl :=
  fin (-0.0147) * Fl.log w - fin 0.3079 * aod700 ^ 2 + fin 0.2846 * aod700 + fin 0.3798

/-- `_calc_taud`, pvlib/clearsky.py:475-514.  The code evaluates both coefficient sets and multiplies by 0/1 masks; for finite water
and aerosol this selects one set (NaN and infinite values make every product NaN, as here: simplification for infinite ones). -/
def calcTaud (w aod700 p : Fl) : Fl :=
  let p0 : Fl := 101325
  let low : Prop := aod700 < fin 0.05
  let td4 := if low then 86 * w - 13800 else fin (-0.21) * w + fin 11.6
  let td3 := if low then fin (-3.11) * w + fin 79.4 else fin 0.27 * w - fin 20.7
  let td2 := if low then fin (-0.23) * w + fin 74.8 else fin (-0.134) * w + fin 15.5
  let td1 := if low then fin 0.092 * w - fin 8.86 else fin 0.0554 * w - fin 5.71
  let td0 := if low then fin 0.0042 * w + fin 3.12 else fin 0.0057 * w + fin 2.94
  let tdp := if low then fin (-0.83) * rpow (1 + aod700) (fin (-17.2)) else fin (-0.71) * rpow (1 + aod700) (fin (-15))
  td4 * aod700 ^ 4 + td3 * aod700 ^ 3 + td2 * aod700 ^ 2 + td1 * aod700 + td0 + tdp * Fl.log (p / p0)

/-- `_calc_d`, pvlib/clearsky.py:517-524. -/
def calcD (aod700 p : Fl) : Fl :=
  let p0 : Fl := 101325
  let dp := 1 / (18 + 152 * aod700)
  fin (-0.337) * aod700 ^ 2 + fin 0.63 * aod700 + fin 0.116 + dp * Fl.log (p / p0)

/-- `simplified_solis`, pvlib/clearsky.py:331-419. -/
def simplifiedSolis (apparent_elevation : Fl) (aod700 : Fl := fin 0.1) (precipitable_water : Fl := 1) (pressure : Fl := 101325)
    (dni_extra : Fl := 1364) : Irr :=
  let p := pressure
  let w := maximum precipitable_water (fin 0.2)
  let i0p := calcI0p dni_extra w aod700 p
  let taub := calcTaub w aod700 p
  let b := calcB w aod700
  let taug := calcTaug w aod700 p
  let g := calcG w aod700
  let taud := calcTaud w aod700 p
  let d := calcD aod700 p
  let sin_elev := maximum (fin 1e-30) (Fl.sin (radians apparent_elevation))
  let dni := i0p * Fl.exp (-taub / rpow sin_elev b)
  let ghi := i0p * Fl.exp (-taug / rpow sin_elev g) * sin_elev
  let dhi := i0p * Fl.exp (-taud / rpow sin_elev d)
  ⟨ghi, dni, dhi⟩

/-- What `bird` returns. (Used for pvlib/clearsky.py:928-1050.) -/
structure BirdOut where
  (direct_horizontal ghi dni dhi : Fl)

/-- `t_rayleigh`, pvlib/clearsky.py:1005-1010. -/
def birdRayleigh (am_press : Fl) : Fl :=
  Fl.exp (fin (-0.0903) * rpow am_press (fin 0.84) * (1 + am_press - rpow am_press (fin 1.01)))
/-- `t_ozone`, pvlib/clearsky.py:1011-1015. -/
def birdOzone (am_o3 : Fl) : Fl :=
  1 - fin 0.1611 * am_o3 * rpow (1 + fin 139.48 * am_o3) (fin (-0.3034)) -
    fin 0.002715 * am_o3 / (1 + fin 0.044 * am_o3 + fin 0.0003 * am_o3 ^ 2)
/-- `t_gases`, pvlib/clearsky.py:1016. -/
def birdGases (am_press : Fl) : Fl := Fl.exp (fin (-0.0127) * rpow am_press (fin 0.26))
/-- `t_water`, pvlib/clearsky.py:1017-1022. -/
def birdWater (am_h2o : Fl) : Fl :=
  1 - fin 2.4959 * am_h2o / (rpow (1 + fin 79.034 * am_h2o) (fin 0.6828) + fin 6.385 * am_h2o)
/-- `t_aerosol`, pvlib/clearsky.py:1023-1027. -/
def birdAerosol (tau airmass : Fl) : Fl :=
  Fl.exp (-(rpow tau (fin 0.873)) * (1 + tau - rpow tau (fin 0.7088)) * rpow airmass (fin 0.9108))

/-- `bird`, pvlib/clearsky.py:928-1050 (`am_o3 ** 2.0` is the square). -/
def bird (zenith airmass_relative aod380 aod500 precipitable_water : Fl) (ozone : Fl := fin 0.3) (pressure : Fl := 101325)
    (dni_extra : Fl := 1364) (asymmetry : Fl := fin 0.85) (albedo : Fl := fin 0.2) : BirdOut :=
  let etr := dni_extra
  let ze_rad := radians zenith
  let airmass := airmass_relative
  let am_press := Atmosphere.absoluteAirmass airmass pressure
  let t_rayleigh := birdRayleigh am_press
  let t_ozone := birdOzone (ozone * airmass)
  let t_gases := birdGases am_press
  let t_water := birdWater (airmass * precipitable_water)
  let t_aerosol := birdAerosol (Atmosphere.birdHulstrom80 aod380 aod500) airmass
  let taa := 1 - fin 0.1 * (1 - airmass + rpow airmass (fin 1.06)) * (1 - t_aerosol)
  let rs := fin 0.0685 + (1 - asymmetry) * (1 - t_aerosol / taa)
  let id_ := fin 0.9662 * etr * t_aerosol * t_water * t_gases * t_ozone * t_rayleigh
  let ze_cos := npwhere (zenith < 90) (Fl.cos ze_rad) 0
  let id_nh := id_ * ze_cos
  let ias := etr * ze_cos * fin 0.79 * t_ozone * t_gases * t_water * taa *
    (fin 0.5 * (1 - t_rayleigh) + asymmetry * (1 - t_aerosol / taa)) / (1 - airmass + rpow airmass (fin 1.02))
  let gh := (id_nh + ias) / (1 - albedo * rs)
  let diffuse_horiz := gh - id_nh
  ⟨id_nh, gh, id_, diffuse_horiz⟩

/-! ### Detection -/

/-- The criteria of `detect_clearsky`, with the defaults of its signature, pvlib/clearsky.py:669-673. -/
structure Limits where
  window_length : ℝ := 10
  mean_diff : ℝ := 75
  max_diff : ℝ := 75
  lower_line_length : ℝ := -5
  upper_line_length : ℝ := 10
  var_diff : ℝ := 0.005
  slope_dev : ℝ := 8

/-- `_clearsky_get_threshold`, pvlib/clearsky.py:639-666. -/
def getThreshold (sample_interval : ℝ) : Except PyErr Limits :=
  if sample_interval < 1 ∨ 30 < sample_interval then .error .valueError
  else
    let at_ (a b c d : ℝ) : ℝ := npInterp [(1, a), (5, b), (15, c), (30, d)] sample_interval
    .ok ⟨at_ 50 60 90 120, at_ 75 75 75 75, at_ 60 65 75 90, at_ (-45) (-45) (-45) (-45), at_ 80 80 80 80,
      at_ 0.005 0.01 0.032 0.07, at_ 50 60 75 96⟩

/-- The values `x[w], ..., x[w+m-1]` of a window (one column of `H`, or of `H[:-1]`), pvlib/clearsky.py:842-843. -/
def window (x : ℕ → Fl) (w m : ℕ) : List Fl := (List.range m).map fun (k : ℕ) => x (w + k)

/-- `.mean()` of a window. (Used for pvlib/clearsky.py:573-576.) -/
def meanOf (l : List Fl) : Fl := Fl.sum l / fin (l.length : ℝ)
/-- `.max()` of a window (NaN propagates). (Used for pvlib/clearsky.py:592-595.) -/
def maxOf (l : List Fl) : Fl := l.foldl maximum ninf
/-- `.std(ddof=1)` of a window. (Used for pvlib/clearsky.py:577-589.) -/
def stdOf (l : List Fl) : Fl :=
  Fl.sqrt (Fl.sum (l.map fun x => (x - meanOf l) ^ 2) / fin ((l.length : ℝ) - 1))

/-- `np.diff`: forward difference. (Used for pvlib/clearsky.py:577-589.) -/
def diff (x : ℕ → Fl) (i : ℕ) : Fl := x (i + 1) - x i

/-- `_to_centered_series`, pvlib/clearsky.py:605-609: `vals` has one entry per window, `n - s + 1` of them; padded with NaN to length
`n` and shifted by `s // 2`. -/
def centered (n s : ℕ) (vals : ℕ → Fl) (i : ℕ) : Fl :=
  if i < s / 2 then nan else if i - s / 2 < n - s + 1 then vals (i - s / 2) else nan

/-- `data_mean`, `data_max` of `_calc_stats`, pvlib/clearsky.py:573-576. -/
def meanSeries (n s : ℕ) (x : ℕ → Fl) : ℕ → Fl := centered n s fun w => meanOf (window x w s)
/-- Used for pvlib/clearsky.py:861-901. -/
def maxSeries (n s : ℕ) (x : ℕ → Fl) : ℕ → Fl := centered n s fun w => maxOf (window x w s)
/-- `data_slope_nstd`, pvlib/clearsky.py:577-589. -/
def slopeNstd (n s : ℕ) (dt : ℝ) (x : ℕ → Fl) : ℕ → Fl :=
  centered n s fun w => stdOf (window (fun i => diff x i / fin dt) w (s - 1)) / meanOf (window x w s)
/-- `_max_diff_windowed`, pvlib/clearsky.py:592-595. -/
def maxDiff (n s : ℕ) (x : ℕ → Fl) : ℕ → Fl := centered n s fun w => maxOf (window (fun i => Fl.abs (diff x i)) w (s - 1))
/-- `_line_length_windowed`, pvlib/clearsky.py:598-602. -/
def lineLength (n s : ℕ) (dt : ℝ) (x : ℕ → Fl) : ℕ → Fl :=
  centered n s fun w => Fl.sum (window (fun i => Fl.sqrt (diff x i ^ 2 + fin dt ^ 2)) w (s - 1))

/-- The six flags of a pass, pvlib/clearsky.py:863-877, at position `i` of the (centred) series. -/
structure Flags where
  (c1 c2 c3 c4 c5 c6 : ℕ → Prop)

/-- Used for pvlib/clearsky.py:861-901. -/
def flags (n s : ℕ) (dt : ℝ) (L : Limits) (meas clear : ℕ → Fl) (alpha : Fl) : Flags where
  c1 i := Fl.abs (meanSeries n s meas i - alpha * meanSeries n s clear i) < fin L.mean_diff
  c2 i := Fl.abs (maxSeries n s meas i - alpha * maxSeries n s clear i) < fin L.max_diff
  c3 i := fin L.lower_line_length < lineLength n s dt meas i - lineLength n s dt (fun j => alpha * clear j) i ∧
    lineLength n s dt meas i - lineLength n s dt (fun j => alpha * clear j) i < fin L.upper_line_length
  c4 i := slopeNstd n s dt meas i < fin L.var_diff
  c5 i := maxDiff n s (fun j => meas j - alpha * clear j) i < fin L.slope_dev
  c6 i := ¬ eqv (meanSeries n s clear i) 0 ∧ ¬ isnan (meanSeries n s clear i)

/-- `clear_windows`, pvlib/clearsky.py:877. -/
def Flags.all (f : Flags) (i : ℕ) : Prop := f.c1 i ∧ f.c2 i ∧ f.c3 i ∧ f.c4 i ∧ f.c5 i ∧ f.c6 i

/-- `clear_samples`, pvlib/clearsky.py:880-884, 612-636 (with `_clear_sample_index`): the samples of the windows (columns of `H`)
whose flag, shifted back by `s // 2`, is set. -/
def clearSamples (n s : ℕ) (f : Flags) (j : ℕ) : Prop := ∃ w, w < n - s + 1 ∧ f.all (w + s / 2) ∧ w ≤ j ∧ j < w + s

/-- `Series.sum()` over the selected samples (`skipna`). (Used for pvlib/clearsky.py:887-895.) -/
def sumOver (n : ℕ) (sel : ℕ → Prop) (x : ℕ → Fl) : Fl :=
  Fl.sum (((List.range n).filter fun j => decide (sel j ∧ x j ≠ nan)).map x)

/-- The new scale factor, pvlib/clearsky.py:887-895. -/
def newAlpha (n : ℕ) (meas clear : ℕ → Fl) (sel : ℕ → Prop) (alpha : Fl) : Fl :=
  let C := sumOver n sel fun j => clear j ^ 2
  if isnan C ∨ eqv C 0 then alpha else sumOver n sel (fun j => meas j * clear j) / C

/-- `round(x)` of a float: to the nearest integer, halves to even; NaN raises ValueError, an infinity OverflowError (modelled as
`runtimeError`). (Used for pvlib/clearsky.py:861-901.) -/
def pyRound : Fl → Except PyErr ℤ
  | fin x => .ok (Tools.aroundReal x)
  | nan => .error .valueError
  | _ => .error .runtimeError

/-- What `detect_clearsky` returns: the samples, the flags (in `components`), the scale, and whether the warning is issued. (Used for pvlib/clearsky.py:669-901.) -/
structure Detection where
  samples : ℕ → Prop
  flags : Flags
  alpha : Fl
  warned : Bool

/-- The loop, pvlib/clearsky.py:861-901, from a given scale with `k` iterations left; without any iteration nothing has been
assigned (line 905 or 925 raises UnboundLocalError). -/
def detectLoop (n s : ℕ) (dt : ℝ) (L : Limits) (meas clear : ℕ → Fl) : ℕ → Fl → Except PyErr Detection
  | 0, _ => .error .unboundLocal
  | k + 1, alpha =>
    let f := flags n s dt L meas clear alpha
    let sel := clearSamples n s f
    let a := newAlpha n meas clear sel alpha
    (pyRound (a * 10000)).bind fun r => (pyRound (alpha * 10000)).bind fun r' =>
      if r = r' then .ok ⟨sel, f, a, false⟩
      else if k = 0 then .ok ⟨sel, f, a, true⟩
      else detectLoop n s dt L meas clear k a

/-- `detect_clearsky`, pvlib/clearsky.py:669-925, for `n` samples at `times` (seconds); see `Temperature.sampleIntervals` for the
time index. -/
def detectClearsky (meas clear : ℕ → Fl) (times : ℕ → ℤ) (n : ℕ) (infer_limits : Bool := false) (L : Limits := {})
    (max_iterations : ℕ := 20) : Except PyErr Detection :=
  (Temperature.sampleIntervals times n L.window_length).bind fun si =>
  ((if infer_limits then (getThreshold si.1).bind fun L' =>
      (Temperature.sampleIntervals times n L'.window_length).bind fun si' => .ok (L', si')
    else .ok (L, si)) : Except PyErr (Limits × (ℝ × ℕ))).bind fun p =>
  if p.2.2 < 3 then .error .valueError
  else if n < p.2.2 then .error .valueError
  else detectLoop n p.2.2 p.2.1 p.1 meas clear max_iterations 1

end Pvlib.Clearsky
end
