import Verif.Model.Tools
import Verif.Model.ToolsMisc
import Verif.Model.SpaTables

/-! # Model of `pvlib/spa.py` (NREL solar position algorithm) -/

noncomputable section
open scoped Classical
open Real
namespace Pvlib.Spa
open Fl Pvlib.Tools

/-- A table entry as a float. (Used for pvlib/spa.py:457-462.) -/
def q (x : ℚ) : Fl := fin (x : ℝ)

/-! ### Times -/

/-- `int(x)` of a real: truncation towards zero. (Used for pvlib/spa.py:404-420.) -/
def pyInt (x : ℝ) : ℤ := if 0 ≤ x then ⌊x⌋ else ⌈x⌉

/-- `julian_day_dt`, pvlib/spa.py:404-420 (integer arguments). -/
def julianDayDt (year month day hour minute second microsecond : ℤ) : ℝ :=
  let year' := if month ≤ 2 then year - 1 else year
  let month' := if month ≤ 2 then month + 12 else month
  let a := pyInt ((year' : ℝ) / 100)
  let b := 2 - a + pyInt ((a : ℝ) * 0.25)
  let frac_of_day := ((microsecond : ℝ) / 1e6 + ((second + minute * 60 + hour * 3600 : ℤ) : ℝ)) * 1.0 / (3600 * 24)
  let d := (day : ℝ) + frac_of_day
  let jd := (pyInt (365.25 * ((year' : ℝ) + 4716)) : ℝ) + (pyInt (30.6001 * ((month' : ℝ) + 1)) : ℝ) + d - 1524.5
  if jd > 2299160.0 then jd + (b : ℝ) else jd

/-- `julian_day`, pvlib/spa.py:424-426. -/
def julianDay (unixtime : Fl) : Fl := unixtime * 1.0 / 86400 + 2440587.5
/-- `julian_ephemeris_day`, pvlib/spa.py:430-432. -/
def julianEphemerisDay (julian_day delta_t : Fl) : Fl := julian_day + delta_t * 1.0 / 86400
/-- `julian_century`, pvlib/spa.py:436-438. -/
def julianCentury (julian_day : Fl) : Fl := (julian_day - 2451545) * 1.0 / 36525
/-- `julian_ephemeris_century`, pvlib/spa.py:442-444. -/
def julianEphemerisCentury (jde : Fl) : Fl := (jde - 2451545) * 1.0 / 36525
/-- `julian_ephemeris_millennium`, pvlib/spa.py:448-450. -/
def julianEphemerisMillennium (jce : Fl) : Fl := jce * 1.0 / 10

/-! ### Heliocentric and geocentric coordinates -/

/-- `sum_mult_cos_add_mult`, pvlib/spa.py:457-462. -/
def sumMultCos (arr : List (ℚ × ℚ × ℚ)) (x : Fl) : Fl :=
  arr.foldl (fun s r => s + q r.1 * Fl.cos (q r.2.1 + q r.2.2 * x)) 0

/-- `heliocentric_longitude`, pvlib/spa.py:465-476. -/
def heliocentricLongitude (jme : Fl) : Fl :=
  let l0 := sumMultCos tabL0 jme
  let l1 := sumMultCos tabL1 jme
  let l2 := sumMultCos tabL2 jme
  let l3 := sumMultCos tabL3 jme
  let l4 := sumMultCos tabL4 jme
  let l5 := sumMultCos tabL5 jme
  let l_rad := (l0 + l1 * jme + l2 * jme ^ 2 + l3 * jme ^ 3 + l4 * jme ^ 4 + l5 * jme ^ 5) / 100000000
  Fl.mod (Fl.degrees l_rad) 360

/-- `heliocentric_latitude`, pvlib/spa.py:479-485. -/
def heliocentricLatitude (jme : Fl) : Fl :=
  let b0 := sumMultCos tabB0 jme
  let b1 := sumMultCos tabB1 jme
  Fl.degrees ((b0 + b1 * jme) / 100000000)

/-- `heliocentric_radius_vector`, pvlib/spa.py:489-497. -/
def heliocentricRadiusVector (jme : Fl) : Fl :=
  let r0 := sumMultCos tabR0 jme
  let r1 := sumMultCos tabR1 jme
  let r2 := sumMultCos tabR2 jme
  let r3 := sumMultCos tabR3 jme
  let r4 := sumMultCos tabR4 jme
  (r0 + r1 * jme + r2 * jme ^ 2 + r3 * jme ^ 3 + r4 * jme ^ 4) / 100000000

/-- `geocentric_longitude`, pvlib/spa.py:501-503. -/
def geocentricLongitude (L : Fl) : Fl := Fl.mod (L + 180.0) 360
/-- `geocentric_latitude`, pvlib/spa.py:507-509. -/
def geocentricLatitude (B : Fl) : Fl := -1.0 * B

/-- `mean_elongation`, pvlib/spa.py:513-518. -/
def meanElongation (jce : Fl) : Fl :=
  297.85036 + 445267.111480 * jce - 0.0019142 * jce ^ 2 + jce ^ 3 / 189474
/-- `mean_anomaly_sun`, pvlib/spa.py:522-527. -/
def meanAnomalySun (jce : Fl) : Fl :=
  357.52772 + 35999.050340 * jce - 0.0001603 * jce ^ 2 - jce ^ 3 / 300000
/-- `mean_anomaly_moon`, pvlib/spa.py:531-536. -/
def meanAnomalyMoon (jce : Fl) : Fl :=
  134.96298 + 477198.867398 * jce + 0.0086972 * jce ^ 2 + jce ^ 3 / 56250
/-- `moon_argument_latitude`, pvlib/spa.py:540-545. -/
def moonArgumentLatitude (jce : Fl) : Fl :=
  93.27191 + 483202.017538 * jce - 0.0036825 * jce ^ 2 + jce ^ 3 / 327270
/-- `moon_ascending_longitude`, pvlib/spa.py:549-554. -/
def moonAscendingLongitude (jce : Fl) : Fl :=
  125.04452 - 1934.136261 * jce + 0.0020708 * jce ^ 2 + jce ^ 3 / 450000

/-- One pass of the loop of `longitude_obliquity_nutation`, pvlib/spa.py:565-577. -/
def nutationStep (jce x0 x1 x2 x3 x4 : Fl) (s : Fl × Fl)
    (row : (ℚ × ℚ × ℚ × ℚ) × (ℤ × ℤ × ℤ × ℤ × ℤ)) : Fl × Fl :=
  let a := q row.1.1
  let b := q row.1.2.1
  let c := q row.1.2.2.1
  let d := q row.1.2.2.2
  let y := row.2
  let arg := Fl.radians (fin (y.1 : ℝ) * x0 + fin (y.2.1 : ℝ) * x1 + fin (y.2.2.1 : ℝ) * x2 +
    fin (y.2.2.2.1 : ℝ) * x3 + fin (y.2.2.2.2 : ℝ) * x4)
  (s.1 + (a + b * jce) * Fl.sin arg, s.2 + (c + d * jce) * Fl.cos arg)

/-- `longitude_obliquity_nutation`, pvlib/spa.py:560-586: (delta_psi, delta_eps). -/
def longitudeObliquityNutation (jce x0 x1 x2 x3 x4 : Fl) : Fl × Fl :=
  let s := (nutationAbcd.zip nutationY).foldl (nutationStep jce x0 x1 x2 x3 x4) (0, 0)
  (s.1 * 1.0 / 36000000, s.2 * 1.0 / 36000000)

/-- `mean_ecliptic_obliquity`, pvlib/spa.py:590-596 (arc seconds). -/
def meanEclipticObliquity (jme : Fl) : Fl :=
  let U := 1.0 * jme / 10
  84381.448 - 4680.93 * U - 1.55 * U ^ 2 + 1999.25 * U ^ 3 - 51.38 * U ^ 4 - 249.67 * U ^ 5
    - 39.05 * U ^ 6 + 7.12 * U ^ 7 + 27.87 * U ^ 8 + 5.79 * U ^ 9 + 2.45 * U ^ 10
/-- `true_ecliptic_obliquity`, pvlib/spa.py:600-604. -/
def trueEclipticObliquity (e0 deleps : Fl) : Fl := e0 * 1.0 / 3600 + deleps
/-- `aberration_correction`, pvlib/spa.py:608-610. -/
def aberrationCorrection (R : Fl) : Fl := -20.4898 / (3600 * R)
/-- `apparent_sun_longitude`, pvlib/spa.py:614-617. -/
def apparentSunLongitude (theta dpsi dtau : Fl) : Fl := theta + dpsi + dtau
/-- `mean_sidereal_time`, pvlib/spa.py:621-624. -/
def meanSiderealTime (jd jc : Fl) : Fl :=
  Fl.mod (280.46061837 + 360.98564736629 * (jd - 2451545) + 0.000387933 * jc ^ 2 - jc ^ 3 / 38710000) 360.0
/-- `apparent_sidereal_time`, pvlib/spa.py:628-632. -/
def apparentSiderealTime (v0 dpsi eps : Fl) : Fl := v0 + dpsi * Fl.cos (Fl.radians eps)

/-- `geocentric_sun_right_ascension`, pvlib/spa.py:636-647. -/
def geocentricSunRightAscension (lamd eps beta : Fl) : Fl :=
  let e := Fl.radians eps
  let l := Fl.radians lamd
  let num := Fl.sin l * Fl.cos e - Fl.tan (Fl.radians beta) * Fl.sin e
  Fl.mod (Fl.degrees (Fl.arctan2 num (Fl.cos l))) 360

/-- `geocentric_sun_declination`, pvlib/spa.py:651-661. -/
def geocentricSunDeclination (lamd eps beta : Fl) : Fl :=
  let b := Fl.radians beta
  let e := Fl.radians eps
  Fl.degrees (Fl.arcsin (Fl.sin b * Fl.cos e + Fl.cos b * Fl.sin e * Fl.sin (Fl.radians lamd)))

/-! ### Topocentric coordinates -/

/-- `local_hour_angle`, pvlib/spa.py:665-669. -/
def localHourAngle (v lon alpha : Fl) : Fl := Fl.mod (v + lon - alpha) 360
/-- `equatorial_horizontal_parallax`, pvlib/spa.py:673-675. -/
def equatorialHorizontalParallax (R : Fl) : Fl := 8.794 / (3600 * R)
/-- `uterm`, pvlib/spa.py:679-681. -/
def uterm (lat : Fl) : Fl := Fl.arctan (0.99664719 * Fl.tan (Fl.radians lat))
/-- `xterm`, pvlib/spa.py:685-688. -/
def xterm (u lat elev : Fl) : Fl := Fl.cos u + elev / 6378140 * Fl.cos (Fl.radians lat)
/-- `yterm`, pvlib/spa.py:692-695. -/
def yterm (u lat elev : Fl) : Fl := 0.99664719 * Fl.sin u + elev / 6378140 * Fl.sin (Fl.radians lat)

/-- `parallax_sun_right_ascension`, pvlib/spa.py:699-711. -/
def parallaxSunRightAscension (x xi H delta : Fl) : Fl :=
  let xr := Fl.radians xi
  let hr := Fl.radians H
  let num := -x * Fl.sin xr * Fl.sin hr
  let denom := Fl.cos (Fl.radians delta) - x * Fl.sin xr * Fl.cos hr
  Fl.degrees (Fl.arctan2 num denom)

/-- `topocentric_sun_right_ascension`, pvlib/spa.py:715-718 (not used by `solar_position`). -/
def topocentricSunRightAscension (alpha dalpha : Fl) : Fl := alpha + dalpha

/-- `topocentric_sun_declination`, pvlib/spa.py:723-738. -/
def topocentricSunDeclination (delta x y xi dalpha H : Fl) : Fl :=
  let dr := Fl.radians delta
  let xr := Fl.radians xi
  let num := (Fl.sin dr - y * Fl.sin xr) * Fl.cos (Fl.radians dalpha)
  let denom := Fl.cos dr - x * Fl.sin xr * Fl.cos (Fl.radians H)
  Fl.degrees (Fl.arctan2 num denom)

/-- `topocentric_local_hour_angle`, pvlib/spa.py:742-745. -/
def topocentricLocalHourAngle (H dalpha : Fl) : Fl := H - dalpha

/-- `topocentric_elevation_angle_without_atmosphere`, pvlib/spa.py:749-761. -/
def topocentricElevation0 (lat dp hp : Fl) : Fl :=
  let lr := Fl.radians lat
  let dr := Fl.radians dp
  Fl.degrees (Fl.arcsin (Fl.sin lr * Fl.sin dr + Fl.cos lr * Fl.cos dr * Fl.cos (Fl.radians hp)))

/-- `atmospheric_refraction_correction`, pvlib/spa.py:765-776. -/
def refractionCorrection (pressure temp e0 atmos_refract : Fl) : Fl :=
  let switch : Prop := -1.0 * (0.26667 + atmos_refract) ≤ e0
  ((pressure / 1010.0) * (283.0 / (273 + temp)) * 1.02 /
    (60 * Fl.tan (Fl.radians (e0 + 10.3 / (e0 + 5.11))))) * boolFl switch

/-- `topocentric_elevation_angle`, pvlib/spa.py:780-784. -/
def topocentricElevation (e0 de : Fl) : Fl := e0 + de
/-- `topocentric_zenith_angle`, pvlib/spa.py:788-790. -/
def topocentricZenith (e : Fl) : Fl := 90 - e

/-- `topocentric_astronomers_azimuth`, pvlib/spa.py:794-805. -/
def astronomersAzimuth (hp dp lat : Fl) : Fl :=
  let hr := Fl.radians hp
  let lr := Fl.radians lat
  let num := Fl.sin hr
  let denom := Fl.cos hr * Fl.sin lr - Fl.tan (Fl.radians dp) * Fl.cos lr
  Fl.mod (Fl.degrees (Fl.arctan2 num denom)) 360

/-- `topocentric_azimuth_angle`, pvlib/spa.py:809-811. -/
def topocentricAzimuth (gamma : Fl) : Fl := Fl.mod (gamma + 180) 360

/-- `sun_mean_longitude`, pvlib/spa.py:815-821. -/
def sunMeanLongitude (jme : Fl) : Fl :=
  280.4664567 + 360007.6982779 * jme + 0.03032028 * jme ^ 2 + jme ^ 3 / 49931 - jme ^ 4 / 15300 - jme ^ 5 / 2000000

/-- `equation_of_time`, pvlib/spa.py:825-837 (minutes). -/
def equationOfTime (M alpha dpsi eps : Fl) : Fl :=
  let E := M - 0.0057183 - alpha + dpsi * Fl.cos (Fl.radians eps)
  let E := Fl.mod E 360
  let E := E * 4
  let greater : Prop := 20 < E
  let less : Prop := E < -20
  let other : Prop := E ≤ 20 ∧ -20 ≤ E
  boolFl greater * (E - 1440) + boolFl less * (E + 1440) + boolFl other * E

/-! ### One time -/

/-- Earth-sun distance at a time, pvlib/spa.py:976-983. -/
def spaRadius (unixtime delta_t : Fl) : Fl :=
  let jd := julianDay unixtime
  let jde := julianEphemerisDay jd delta_t
  heliocentricRadiusVector (julianEphemerisMillennium (julianEphemerisCentury jde))

/-- The quantities shared by the two outputs below, pvlib/spa.py:976-1004. -/
structure Geo where
  R : Fl
  v : Fl
  alpha : Fl
  delta : Fl
  dpsi : Fl
  eps : Fl
  jme : Fl

/-- pvlib/spa.py:976-1004. -/
def spaGeo (unixtime delta_t : Fl) : Geo :=
  let jd := julianDay unixtime
  let jde := julianEphemerisDay jd delta_t
  let jc := julianCentury jd
  let jce := julianEphemerisCentury jde
  let jme := julianEphemerisMillennium jce
  let R := heliocentricRadiusVector jme
  let L := heliocentricLongitude jme
  let B := heliocentricLatitude jme
  let Theta := geocentricLongitude L
  let beta := geocentricLatitude B
  let nut := longitudeObliquityNutation jce (meanElongation jce) (meanAnomalySun jce) (meanAnomalyMoon jce)
    (moonArgumentLatitude jce) (moonAscendingLongitude jce)
  let delta_psi := nut.1
  let delta_epsilon := nut.2
  let epsilon0 := meanEclipticObliquity jme
  let epsilon := trueEclipticObliquity epsilon0 delta_epsilon
  let delta_tau := aberrationCorrection R
  let lamd := apparentSunLongitude Theta delta_psi delta_tau
  let v0 := meanSiderealTime jd jc
  let v := apparentSiderealTime v0 delta_psi epsilon
  let alpha := geocentricSunRightAscension lamd epsilon beta
  let delta := geocentricSunDeclination lamd epsilon beta
  ⟨R, v, alpha, delta, delta_psi, epsilon, jme⟩

/-- The `sst=True` output (v, alpha, delta), pvlib/spa.py:1005-1006. -/
def spaSst (unixtime delta_t : Fl) : Fl × Fl × Fl :=
  let g := spaGeo unixtime delta_t
  (g.v, g.alpha, g.delta)

/-- Site arguments of `solar_position`. (Used for pvlib/spa.py:1007-1026.) -/
structure Loc where
  lat : Fl
  lon : Fl
  elev : Fl
  pressure : Fl
  temp : Fl
  atmos_refract : Fl

/-- The six output rows, pvlib/spa.py:1026. -/
structure SpaOut where
  apparent_zenith : Fl
  zenith : Fl
  apparent_elevation : Fl
  elevation : Fl
  azimuth : Fl
  eot : Fl

/-- From geocentric quantities to the output, pvlib/spa.py:1007-1026. -/
def spaTopo (loc : Loc) (g : Geo) : SpaOut :=
  let m := sunMeanLongitude g.jme
  let eot := equationOfTime m g.alpha g.dpsi g.eps
  let H := localHourAngle g.v loc.lon g.alpha
  let xi := equatorialHorizontalParallax g.R
  let u := uterm loc.lat
  let x := xterm u loc.lat loc.elev
  let y := yterm u loc.lat loc.elev
  let delta_alpha := parallaxSunRightAscension x xi H g.delta
  let delta_prime := topocentricSunDeclination g.delta x y xi delta_alpha H
  let H_prime := topocentricLocalHourAngle H delta_alpha
  let e0 := topocentricElevation0 loc.lat delta_prime H_prime
  let delta_e := refractionCorrection loc.pressure loc.temp e0 loc.atmos_refract
  let e := topocentricElevation e0 delta_e
  let theta := topocentricZenith e
  let theta0 := topocentricZenith e0
  let gamma := astronomersAzimuth H_prime delta_prime loc.lat
  let phi := topocentricAzimuth gamma
  ⟨theta, theta0, e, e0, phi, eot⟩

/-- `solar_position` at one time, pvlib/spa.py:976-1026 (numpy) and 854-916 (numba loop body). -/
def spaFull (loc : Loc) (unixtime delta_t : Fl) : SpaOut := spaTopo loc (spaGeo unixtime delta_t)

/-! ### numpy and numba (threaded) evaluation -/

/-- Which output is requested. (Used for pvlib/spa.py:862-864.) -/
inductive Mode where
  | full
  | sst
  | esd
  deriving DecidableEq

/-- The cells written for one time by the loop body, top row first, pvlib/spa.py:862-864, 886-890, 911-916.
`esd` is tested first. -/
def cells (mode : Mode) (loc : Loc) (u dT : Fl) : List Fl :=
  match mode with
  | .esd => [spaRadius u dT]
  | .sst => [(spaSst u dT).1, (spaSst u dT).2.1, (spaSst u dT).2.2]
  | .full =>
      let o := spaFull loc u dT
      [o.apparent_zenith, o.zenith, o.apparent_elevation, o.elevation, o.azimuth, o.eot]

/-- Number of rows, pvlib/spa.py:933-938. -/
def dims : Mode → ℕ
  | .full => 6
  | .sst => 3
  | .esd => 1

/-- `solar_position_numpy`, pvlib/spa.py:969-1026: every array operation is elementwise, so column `c` of the
result holds the cells of time `c`. -/
def solarPositionNumpy (mode : Mode) (loc : Loc) (ut : List (Fl × Fl)) : List (List Fl) :=
  ut.map fun p => cells mode loc p.1 p.2

/-- A write to cell (row, column). (Used for pvlib/spa.py:842-916.) -/
structure Write where
  row : ℕ
  col : ℕ
  val : Fl

/-- The memory of the `result` array (contents before any write are arbitrary: `np.empty`). (Used for pvlib/spa.py:1090-1097.) -/
abbrev Mem := ℕ → ℕ → Fl

/-- Performing one write. (Used for pvlib/spa.py:842-916.) -/
def Mem.put (m : Mem) (w : Write) : Mem := fun r c => if r = w.row ∧ c = w.col then w.val else m r c

/-- Performing writes in order. (Used for pvlib/spa.py:1090-1097.) -/
def Mem.run (m : Mem) (ws : List Write) : Mem := ws.foldl Mem.put m

/-- Writes of one loop pass: the cells of one time, top row first. (Used for pvlib/spa.py:842-916.) -/
def passWrites (mode : Mode) (loc : Loc) (col : ℕ) (p : Fl × Fl) : List Write :=
  (cells mode loc p.1 p.2).mapIdx fun r v => ⟨r, col, v⟩

/-- `solar_position_loop`, pvlib/spa.py:842-916, on a slice starting at column `off` of the result: the
sequence of writes it performs. -/
def loopWrites (mode : Mode) (loc : Loc) (off : ℕ) (chunk : List (Fl × Fl)) : List Write :=
  match chunk with
  | [] => []
  | p :: rest => passWrites mode loc off p ++ loopWrites mode loc (off + 1) rest

/-- Chunk sizes of `np.array_split(a, k)` for `len(a) = n`: the first `n % k` chunks get one more. (Used for pvlib/spa.py:944-961.) -/
def chunkSizes (n k : ℕ) : List ℕ := (List.range k).map fun i => n / k + if i < n % k then 1 else 0

/-- Cutting a list into pieces of given sizes, with their starting positions. (Used for pvlib/spa.py:944-961.) -/
def cutAt {α : Type} : ℕ → List ℕ → List α → List (ℕ × List α)
  | _, [], _ => []
  | off, s :: ss, l => (off, l.take s) :: cutAt (off + s) ss (l.drop s)

/-- The write sequences of the threads, pvlib/spa.py:944-961: with at most one thread, a single loop over
everything; otherwise one per chunk of `np.array_split`.  Threads share nothing but the result array, of
which each has its own columns. -/
def threads (mode : Mode) (loc : Loc) (ut : List (Fl × Fl)) (numthreads : ℤ) : List (List Write) :=
  let n := ut.length
  let k := if (n : ℤ) < numthreads then (n : ℤ) else numthreads
  if k ≤ 1 then [loopWrites mode loc 0 ut]
  else (cutAt 0 (chunkSizes n k.toNat) ut).map fun p => loopWrites mode loc p.1 p.2

/-- `Interleaving ts ws`: the schedule `ws` runs the threads `ts` to completion, each in its own order,
arbitrarily interleaved (individual cell writes are atomic). (Used for pvlib/spa.py:1090-1097.) -/
inductive Interleaving : List (List Write) → List Write → Prop
  | done (ts : List (List Write)) (h : ∀ t ∈ ts, t = []) : Interleaving ts []
  | step (pre post : List (List Write)) (w : Write) (rest : List Write) (ws : List Write)
      (h : Interleaving (pre ++ rest :: post) ws) : Interleaving (pre ++ (w :: rest) :: post) (w :: ws)

/-! ### Transit, sunrise, sunset -/

/-- `x[abs(x) > 2] = x[abs(x) > 2] % 1`, pvlib/spa.py:1175-1181. -/
def unwrap1 (a : Fl) : Fl := if 2 < Fl.abs a then Fl.mod a 1 else a

/-- `cos_arg` after masking, pvlib/spa.py:1154-1157. -/
def cosArg (lat delta0 : Fl) : Fl :=
  let c := (Fl.sin (Fl.radians (-0.8333)) - Fl.sin (Fl.radians lat) * Fl.sin (Fl.radians delta0)) /
    (Fl.cos (Fl.radians lat) * Fl.cos (Fl.radians delta0))
  if 1 < Fl.abs c then nan else c

/-- `H0`, pvlib/spa.py:1158. -/
def h0 (lat delta0 : Fl) : Fl := Fl.mod (Fl.degrees (Fl.arccos (cosArg lat delta0))) 180

/-- Right ascension and declination interpolated to the fraction `m` of the day, local hour angle and
altitude, pvlib/spa.py:1171-1194: (delta_prime, Hp, h).  `s0`, `sn`, `sp` are the (v, alpha, delta) of the day,
the day before and the day after. -/
def atFraction (lat lon delta_t v : Fl) (s0 sn sp : Fl × Fl × Fl) (m : Fl) : Fl × Fl × Fl :=
  let vs := v + 360.985647 * m
  let n := m + delta_t / 86400
  let a := unwrap1 (s0.2.1 - sn.2.1)
  let ap := unwrap1 (s0.2.2 - sn.2.2)
  let b := unwrap1 (sp.2.1 - s0.2.1)
  let bp := unwrap1 (sp.2.2 - s0.2.2)
  let c := b - a
  let cp := bp - ap
  let alpha_prime := s0.2.1 + (n * (a + b + c * n)) / 2
  let delta_prime := s0.2.2 + (n * (ap + bp + cp * n)) / 2
  let Hp := Fl.mod (vs + lon - alpha_prime) 360
  let Hp := if 180 ≤ Hp then Hp - 360 else Hp
  let h := Fl.degrees (Fl.arcsin (Fl.sin (Fl.radians lat) * Fl.sin (Fl.radians delta_prime) +
    Fl.cos (Fl.radians lat) * Fl.cos (Fl.radians delta_prime) * Fl.cos (Fl.radians Hp)))
  (delta_prime, Hp, h)

/-- The altitude correction to sunrise and sunset (fractions of a day), pvlib/spa.py:1197-1202. -/
def riseCorrection (lat : Fl) (f : Fl × Fl × Fl) : Fl :=
  (f.2.2 + 0.8333) / (360 * Fl.cos (Fl.radians f.1) * Fl.cos (Fl.radians lat) * Fl.sin (Fl.radians f.2.1))

/-- `transit_sunrise_sunset` for one date, given that it passed the check, pvlib/spa.py:1137-1211:
(transit, sunrise, sunset), in unix time.  `sst` is `solar_position(·, sst=True)` at one time. -/
def transitSunriseSunset1 (sst : Fl → Fl → Fl × Fl × Fl) (lat lon delta_t date : Fl) : Fl × Fl × Fl :=
  let utday := Fl.floor (date / 86400) * 86400
  let ttday0 := utday - delta_t
  let ttdayn1 := ttday0 - 86400
  let ttdayp1 := ttday0 + 86400
  let v := (sst utday delta_t).1
  let s0 := sst ttday0 delta_t
  let sn := sst ttdayn1 delta_t
  let sp := sst ttdayp1 delta_t
  let m0 := (s0.2.1 - lon - v) / 360
  let H0 := h0 lat s0.2.2
  let mT := Fl.mod m0 1
  let mR := mT - H0 / 360
  let mS := mT + H0 / 360
  let add_a_day : Prop := 1 ≤ mS
  let sub_a_day : Prop := mR < 0
  let mR := Fl.mod mR 1
  let mS := Fl.mod mS 1
  let fT := atFraction lat lon delta_t v s0 sn sp mT
  let fR := atFraction lat lon delta_t v s0 sn sp mR
  let fS := atFraction lat lon delta_t v s0 sn sp mS
  let T := (mT - fT.2.1 / 360) * 86400
  let R := (mR + riseCorrection lat fR) * 86400
  let S := (mS + riseCorrection lat fS) * 86400
  let S := if add_a_day then S + 86400 else S
  let R := if sub_a_day then R - 86400 else R
  (T + utday, R + utday, S + utday)

/-- `transit_sunrise_sunset`, pvlib/spa.py:1108-1211, on dates paired with their `delta_t`: raises if any date
is not at 00:00 UTC (`NaN % 86400 != 0` is true, so a NaT raises). -/
def transitSunriseSunset (sst : Fl → Fl → Fl × Fl × Fl) (lat lon : Fl) (dates : List (Fl × Fl)) :
    Except PyErr (List (Fl × Fl × Fl)) :=
  if ∃ d ∈ dates, Fl.mod d.1 86400 ≠ 0 then .error .valueError
  else .ok (dates.map fun d => transitSunriseSunset1 sst lat lon d.2 d.1)

/-! ### `calculate_deltat` -/

/-- The branches of `calculate_deltat`, pvlib/spa.py:1268-1368, applied in order. -/
def calculateDeltat (year month : Fl) : Fl :=
  let y := year + (month - 0.5) / 12
  let deltat := npwhere (year < -500) (-20 + 32 * ((y - 1820) / 100) ^ 2) 0
  let deltat := npwhere (-500 ≤ year ∧ year < 500)
    (10583.6 - 1014.41 * (y / 100) + 33.78311 * (y / 100) ^ 2 - 5.952053 * (y / 100) ^ 3
      - 0.1798452 * (y / 100) ^ 4 + 0.022174192 * (y / 100) ^ 5 + 0.0090316521 * (y / 100) ^ 6) deltat
  let deltat := npwhere (500 ≤ year ∧ year < 1600)
    (1574.2 - 556.01 * ((y - 1000) / 100) + 71.23472 * ((y - 1000) / 100) ^ 2
      + 0.319781 * ((y - 1000) / 100) ^ 3 - 0.8503463 * ((y - 1000) / 100) ^ 4
      - 0.005050998 * ((y - 1000) / 100) ^ 5 + 0.0083572073 * ((y - 1000) / 100) ^ 6) deltat
  let deltat := npwhere (1600 ≤ year ∧ year < 1700)
    (120 - 0.9808 * (y - 1600) - 0.01532 * (y - 1600) ^ 2 + (y - 1600) ^ 3 / 7129) deltat
  let deltat := npwhere (1700 ≤ year ∧ year < 1800)
    (8.83 + 0.1603 * (y - 1700) - 0.0059285 * (y - 1700) ^ 2 + 0.00013336 * (y - 1700) ^ 3
      - (y - 1700) ^ 4 / 1174000) deltat
  let deltat := npwhere (1800 ≤ year ∧ year < 1860)
    (13.72 - 0.332447 * (y - 1800) + 0.0068612 * (y - 1800) ^ 2 + 0.0041116 * (y - 1800) ^ 3
      - 0.00037436 * (y - 1800) ^ 4 + 0.0000121272 * (y - 1800) ^ 5 - 0.0000001699 * (y - 1800) ^ 6
      + 0.000000000875 * (y - 1800) ^ 7) deltat
  let deltat := npwhere (1860 ≤ year ∧ year < 1900)
    (7.62 + 0.5737 * (y - 1860) - 0.251754 * (y - 1860) ^ 2 + 0.01680668 * (y - 1860) ^ 3
      - 0.0004473624 * (y - 1860) ^ 4 + (y - 1860) ^ 5 / 233174) deltat
  let deltat := npwhere (1900 ≤ year ∧ year < 1920)
    (-2.79 + 1.494119 * (y - 1900) - 0.0598939 * (y - 1900) ^ 2 + 0.0061966 * (y - 1900) ^ 3
      - 0.000197 * (y - 1900) ^ 4) deltat
  let deltat := npwhere (1920 ≤ year ∧ year < 1941)
    (21.20 + 0.84493 * (y - 1920) - 0.076100 * (y - 1920) ^ 2 + 0.0020936 * (y - 1920) ^ 3) deltat
  let deltat := npwhere (1941 ≤ year ∧ year < 1961)
    (29.07 + 0.407 * (y - 1950) - (y - 1950) ^ 2 / 233 + (y - 1950) ^ 3 / 2547) deltat
  let deltat := npwhere (1961 ≤ year ∧ year < 1986)
    (45.45 + 1.067 * (y - 1975) - (y - 1975) ^ 2 / 260 - (y - 1975) ^ 3 / 718) deltat
  let deltat := npwhere (1986 ≤ year ∧ year < 2005)
    (63.86 + 0.3345 * (y - 2000) - 0.060374 * (y - 2000) ^ 2 + 0.0017275 * (y - 2000) ^ 3
      + 0.000651814 * (y - 2000) ^ 4 + 0.00002373599 * (y - 2000) ^ 5) deltat
  let deltat := npwhere (2005 ≤ year ∧ year < 2050)
    (62.92 + 0.32217 * (y - 2000) + 0.005589 * (y - 2000) ^ 2) deltat
  let deltat := npwhere (2050 ≤ year ∧ year < 2150)
    (-20 + 32 * ((y - 1820) / 100) ^ 2 - 0.5628 * (2150 - y)) deltat
  npwhere (2150 ≤ year) (-20 + 32 * ((y - 1820) / 100) ^ 2) deltat

/-- The warning condition, pvlib/spa.py:1260. -/
def deltatWarns (year : Fl) : Prop := 3000 < year ∨ year < -1999

end Pvlib.Spa
end
