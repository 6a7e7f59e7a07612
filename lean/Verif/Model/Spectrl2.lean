import Verif.Model.Decomposition
import Verif.Model.Irradiance
import Verif.Model.Atmosphere

/-! # Model of `pvlib/spectrum/spectrl2.py`

One wavelength at a time; the result of the call is the list over the 122 wavelengths.  Inputs are scalars (arrays and Series are
elementwise). -/

noncomputable section
open scoped Classical
namespace Pvlib.Spectrl2
open Fl Pvlib.Tools Pvlib.Irradiance Pvlib.Atmosphere

/-- A row of `_SPECTRL2_COEFFS`, pvlib/spectrum/spectrl2.py:11-17: wavelength, extraterrestrial spectral irradiance, and the
absorption coefficients of water vapour, ozone and mixed gases. -/
structure Coeff where
  (wavelength et vapor ozone mixed : ℚ)
  deriving DecidableEq

/-- `_SPECTRL2_COEFFS`, pvlib/spectrum/spectrl2.py:18-83, transposed (exact decimals). -/
def coeffs : List Coeff := [
  ⟨300, 5359/10000, 0, 10, 0⟩, ⟨305, 5583/10000, 0, 24/5, 0⟩, ⟨310, 311/500, 0, 27/10, 0⟩, ⟨315, 6927/10000, 0, 27/20, 0⟩,
  ⟨320, 7151/10000, 0, 4/5, 0⟩, ⟨325, 8329/10000, 0, 19/50, 0⟩, ⟨330, 9619/10000, 0, 4/25, 0⟩, ⟨335, 9319/10000, 0, 3/40, 0⟩,
  ⟨340, 4503/5000, 0, 1/25, 0⟩, ⟨345, 9113/10000, 0, 19/1000, 0⟩, ⟨350, 1951/2000, 0, 7/1000, 0⟩, ⟨360, 9759/10000, 0, 0, 0⟩,
  ⟨370, 11199/10000, 0, 0, 0⟩, ⟨380, 5519/5000, 0, 0, 0⟩, ⟨390, 5169/5000, 0, 0, 0⟩, ⟨400, 14791/10000, 0, 0, 0⟩,
  ⟨410, 17013/10000, 0, 0, 0⟩, ⟨420, 4351/2500, 0, 0, 0⟩, ⟨430, 992/625, 0, 0, 0⟩, ⟨440, 1837/1000, 0, 0, 0⟩,
  ⟨450, 401/200, 0, 3/1000, 0⟩, ⟨460, 2043/1000, 0, 3/500, 0⟩, ⟨470, 1987/1000, 0, 9/1000, 0⟩, ⟨480, 2027/1000, 0, 7/500, 0⟩,
  ⟨490, 237/125, 0, 21/1000, 0⟩, ⟨500, 1909/1000, 0, 3/100, 0⟩, ⟨510, 1927/1000, 0, 1/25, 0⟩, ⟨520, 1831/1000, 0, 6/125, 0⟩,
  ⟨530, 1891/1000, 0, 63/1000, 0⟩, ⟨540, 949/500, 0, 3/40, 0⟩, ⟨550, 473/250, 0, 17/200, 0⟩, ⟨570, 46/25, 0, 3/25, 0⟩,
  ⟨593, 221/125, 3/40, 119/1000, 0⟩, ⟨610, 216/125, 0, 3/25, 0⟩, ⟨630, 829/500, 0, 9/100, 0⟩, ⟨656, 381/250, 0, 13/200, 0⟩,
  ⟨3338/5, 1531/1000, 0, 51/1000, 0⟩, ⟨690, 71/50, 2/125, 7/250, 3/20⟩, ⟨710, 1399/1000, 1/80, 9/500, 0⟩, ⟨718, 687/500, 9/5, 3/200, 0⟩,
  ⟨3622/5, 1373/1000, 5/2, 3/250, 0⟩, ⟨740, 649/500, 61/1000, 1/100, 0⟩, ⟨1505/2, 1269/1000, 1/1250, 1/125, 0⟩, ⟨1515/2, 249/200, 1/10000, 7/1000, 0⟩,
  ⟨1525/2, 1223/1000, 1/100000, 3/500, 4⟩, ⟨1535/2, 241/200, 1/100000, 1/200, 7/20⟩, ⟨780, 1183/1000, 3/5000, 0, 0⟩, ⟨800, 287/250, 9/250, 0, 0⟩,
  ⟨816, 1091/1000, 8/5, 0, 0⟩, ⟨8237/10, 531/500, 5/2, 0, 0⟩, ⟨1663/2, 519/500, 1/2, 0, 0⟩, ⟨840, 511/500, 31/200, 0, 0⟩,
  ⟨860, 9987/10000, 1/100000, 0, 0⟩, ⟨880, 592/625, 13/5000, 0, 0⟩, ⟨905, 2233/2500, 7, 0, 0⟩, ⟨915, 4341/5000, 5, 0, 0⟩,
  ⟨925, 8297/10000, 5, 0, 0⟩, ⟨930, 8303/10000, 27, 0, 0⟩, ⟨937, 407/500, 55, 0, 0⟩, ⟨948, 7869/10000, 45, 0, 0⟩,
  ⟨965, 7683/10000, 4, 0, 0⟩, ⟨980, 767/1000, 37/25, 0, 0⟩, ⟨1987/2, 947/1250, 1/10, 0, 0⟩, ⟨1040, 6881/10000, 1/100000, 0, 0⟩,
  ⟨1070, 6407/10000, 1/1000, 0, 0⟩, ⟨1100, 3031/5000, 16/5, 0, 0⟩, ⟨1120, 5859/10000, 115, 0, 0⟩, ⟨1130, 2851/5000, 70, 0, 0⟩,
  ⟨1145, 5641/10000, 75, 0, 0⟩, ⟨1161, 2721/5000, 10, 0, 0⟩, ⟨1170, 2667/5000, 5, 0, 0⟩, ⟨1200, 627/1250, 2, 0, 0⟩,
  ⟨1240, 191/400, 1/500, 0, 1/20⟩, ⟨1270, 4427/10000, 1/500, 0, 3/10⟩, ⟨1290, 11/25, 1/10, 0, 1/50⟩, ⟨1320, 521/1250, 4, 0, 1/5000⟩,
  ⟨1350, 1957/5000, 200, 0, 11/100000⟩, ⟨1395, 3589/10000, 1000, 0, 1/100000⟩, ⟨2885/2, 131/400, 185, 0, 1/20⟩, ⟨2925/2, 127/400, 80, 0, 11/1000⟩,
  ⟨1477, 3073/10000, 80, 0, 1/200⟩, ⟨1497, 751/2500, 12, 0, 3/5000⟩, ⟨1520, 183/625, 4/25, 0, 0⟩, ⟨1539, 551/2000, 1/500, 0, 1/200⟩,
  ⟨1558, 2721/10000, 1/2000, 0, 13/100⟩, ⟨1578, 2593/10000, 1/10000, 0, 1/25⟩, ⟨1592, 2469/10000, 1/100000, 0, 3/50⟩, ⟨1610, 61/250, 1/10000, 0, 13/100⟩,
  ⟨1630, 487/2000, 1/1000, 0, 1/1000⟩, ⟨1646, 587/2500, 1/100, 0, 7/5000⟩, ⟨1678, 441/2000, 9/250, 0, 1/10000⟩, ⟨1740, 477/2500, 11/10, 0, 1/100000⟩,
  ⟨1800, 1711/10000, 130, 0, 1/100000⟩, ⟨1860, 289/2000, 1000, 0, 1/10000⟩, ⟨1920, 1357/10000, 500, 0, 1/1000⟩, ⟨1960, 123/1000, 100, 0, 43/10⟩,
  ⟨1985, 619/5000, 4, 0, 1/5⟩, ⟨2005, 113/1000, 29/10, 0, 21⟩, ⟨2035, 217/2000, 1, 0, 13/100⟩, ⟨2065, 39/400, 2/5, 0, 1⟩,
  ⟨2100, 231/2500, 11/50, 0, 2/25⟩, ⟨2148, 103/1250, 1/4, 0, 1/1000⟩, ⟨2198, 373/5000, 33/100, 0, 19/50000⟩, ⟨2270, 683/10000, 1/2, 0, 1/1000⟩,
  ⟨2360, 319/5000, 4, 0, 1/2000⟩, ⟨2450, 99/2000, 80, 0, 3/20000⟩, ⟨2500, 97/2000, 310, 0, 7/50000⟩, ⟨2600, 193/5000, 15000, 0, 33/50000⟩,
  ⟨2700, 183/5000, 22000, 0, 100⟩, ⟨2800, 4/125, 8000, 0, 150⟩, ⟨2900, 281/10000, 650, 0, 13/100⟩, ⟨3000, 31/1250, 240, 0, 19/2000⟩,
  ⟨3100, 221/10000, 230, 0, 1/1000⟩, ⟨3200, 49/2500, 100, 0, 4/5⟩, ⟨3300, 7/400, 120, 0, 19/10⟩, ⟨3400, 157/10000, 39/2, 0, 13/10⟩,
  ⟨3500, 141/10000, 18/5, 0, 3/40⟩, ⟨3600, 127/10000, 31/10, 0, 1/100⟩, ⟨3700, 23/2000, 5/2, 0, 39/20000⟩, ⟨3800, 13/1250, 7/5, 0, 1/250⟩,
  ⟨3900, 19/2000, 17/100, 0, 29/100⟩, ⟨4000, 43/5000, 9/2000, 0, 1/40⟩]

/-- The eight terms of `_spectrl2_transmittances`. (Used for pvlib/spectrum/spectrl2.py:86-171.) -/
structure Trans where
  (D Tr Ta Tw To Tu Tas Taa : Fl)

/-- `_spectrl2_transmittances` at one wavelength, pvlib/spectrum/spectrl2.py:86-171. -/
def transmittances (c : Coeff) (apparent_zenith relative_airmass surface_pressure precipitable_water ozone optical_thickness
    scattering_albedo dayofyear : Fl) : Trans :=
  let earth_sun_distance_correction := extraSpencer dayofyear 1
  let airmass := relative_airmass * surface_pressure / 101300
  let wavelength_um := fin c.wavelength / 1000
  let rayleigh := Fl.exp (-airmass / (wavelength_um ^ 4 * (fin 115.6406 - fin 1.3366 / wavelength_um ^ 2)))
  let aerosol := Fl.exp (-optical_thickness * relative_airmass)
  let aWM := fin c.vapor * precipitable_water * relative_airmass
  let vapor := Fl.exp (fin (-0.2385) * aWM / rpow (1 + fin 20.07 * aWM) (fin 0.45))
  let h0_norm : Fl := 22 / 6370
  let ozone_mass := (1 + h0_norm) / Fl.sqrt (cosd apparent_zenith ^ 2 + 2 * h0_norm)
  let ozone_t := Fl.exp (fin (-c.ozone) * ozone * ozone_mass)
  let aM := fin c.mixed * airmass
  let mixed := Fl.exp (fin (-1.41) * aM / rpow (1 + fin 118.3 * aM) (fin 0.45))
  let scattering := Fl.exp (-scattering_albedo * optical_thickness * relative_airmass)
  let absorption := Fl.exp (-(1 - scattering_albedo) * optical_thickness * relative_airmass)
  ⟨earth_sun_distance_correction, rayleigh, aerosol, vapor, ozone_t, mixed, scattering, absorption⟩

/-- One wavelength of the result of `spectrl2`. (Used for pvlib/spectrum/spectrl2.py:388-397.) -/
structure Out where
  (wavelength dni_extra dhi dni poa_sky_diffuse poa_ground_diffuse poa_direct poa_global : Fl)

/-- The arguments of `spectrl2` but `dayofyear`, pvlib/spectrum/spectrl2.py:174-178, with the defaults. -/
structure Args where
  (apparent_zenith aoi surface_tilt ground_albedo surface_pressure relative_airmass precipitable_water ozone
    aerosol_turbidity_500nm : Fl)
  (scattering_albedo_400nm : Fl := fin 0.945)
  (alpha : Fl := fin 1.14)
  (wavelength_variation_factor : Fl := fin 0.095)
  (aerosol_asymmetry_factor : Fl := fin 0.65)

/-- The forward scattering fraction at cosine `u`, pvlib/spectrum/spectrl2.py:324-328. -/
def forward (aerosol_asymmetry_factor u : Fl) : Fl :=
  let ALG := Fl.log (1 - aerosol_asymmetry_factor)
  let BFS := ALG * (fin 0.0783 + ALG * (fin (-0.3824) - ALG * fin 0.5874))
  let AFS := ALG * (fin 1.459 + ALG * (fin 0.1595 + ALG * fin 0.4129))
  1 - fin 0.5 * Fl.exp ((AFS + BFS * u) * u)

/-- `Fsp`, pvlib/spectrum/spectrl2.py:328: with `/ 1.8` in place of the cosine. -/
def forwardPrime (aerosol_asymmetry_factor : Fl) : Fl :=
  let ALG := Fl.log (1 - aerosol_asymmetry_factor)
  let BFS := ALG * (fin 0.0783 + ALG * (fin (-0.3824) - ALG * fin 0.5874))
  let AFS := ALG * (fin 1.459 + ALG * (fin 0.1595 + ALG * fin 0.4129))
  1 - fin 0.5 * Fl.exp ((AFS + BFS / fin 1.8) / fin 1.8)

/-- `spectrl2` at one wavelength, pvlib/spectrum/spectrl2.py:298-397. -/
def atWavelength (c : Coeff) (a : Args) (dayofyear : Fl) : Except PyErr Out :=
  let wavelength := fin (c.wavelength : ℝ)
  let spectrum_et := fin (c.et : ℝ)
  let optical_thickness := angstromAod a.aerosol_turbidity_500nm 500 a.alpha wavelength
  let scattering_albedo := a.scattering_albedo_400nm * Fl.exp (-a.wavelength_variation_factor * Fl.log (wavelength / 400) ^ 2)
  let t := transmittances c a.apparent_zenith a.relative_airmass a.surface_pressure a.precipitable_water a.ozone optical_thickness
    scattering_albedo dayofyear
  let spectrum_et_adj := spectrum_et * t.D
  let Id := spectrum_et_adj * t.Tr * t.Ta * t.Tw * t.To * t.Tu
  let cosZ := cosd a.apparent_zenith
  let Cs := npwhere (wavelength ≤ 450) (rpow ((wavelength + 550) / 1000) (fin 1.8)) 1
  let Fs := forward a.aerosol_asymmetry_factor cosZ
  let Fsp := forwardPrime a.aerosol_asymmetry_factor
  let p := transmittances c a.apparent_zenith (fin 1.8) a.surface_pressure a.precipitable_water a.ozone optical_thickness
    scattering_albedo dayofyear
  let sky_reflectivity := p.Tu * p.Tw * p.Taa * (fin 0.5 * (1 - p.Tr) + (1 - Fsp) * p.Tr * (1 - p.Tas))
  let common_factor := spectrum_et_adj * cosZ * t.To * t.Tu * t.Tw * t.Taa
  let Ir := common_factor * (1 - rpow t.Tr (fin 0.95)) * fin 0.5
  let Ia := common_factor * rpow t.Tr (fin 1.5) * (1 - t.Tas) * Fs
  let rs := sky_reflectivity
  let rg := a.ground_albedo
  let Ig := (Id * cosZ + Ir + Ia) * rs * rg / (1 - rs * rg)
  let Is := (Ir + Ia + Ig) * Cs
  let aoi_projection_nn := maximum (cosd a.aoi) 0
  let Ibeam := Id * aoi_projection_nn
  let projection_ratio := aoi_projection_nn / maximum cosZ (fin 0.01745)
  let Isky := (haydaviesRb a.surface_tilt Is Id spectrum_et_adj projection_ratio).poa_sky_diffuse
  let ghi := Id * cosZ + Is
  match groundDiffuse a.surface_tilt ghi rg with
  | .error e => .error e
  | .ok Iground =>
    let Itilt := Ibeam + Isky + Iground
    .ok ⟨wavelength, spectrum_et_adj, Is, Id, Isky, Iground, Ibeam, Itilt⟩

/-- All wavelengths, or the first exception. (Used for pvlib/spectrum/spectrl2.py:298-397.) -/
def allWavelengths (a : Args) (dayofyear : Fl) : List Coeff → Except PyErr (List Out)
  | [] => .ok []
  | c :: cs => match atWavelength c a dayofyear with
    | .error e => .error e
    | .ok o => match allWavelengths a dayofyear cs with
      | .error e => .error e
      | .ok os => .ok (o :: os)

/-- `spectrl2`, pvlib/spectrum/spectrl2.py:174-397, at one time.  `indexDoy` is the day of the year of the index if the inputs are
Series; then `dayofyear` is overwritten. -/
def spectrl2 (a : Args) (dayofyear indexDoy : Option Fl) : Except PyErr (List Out) :=
  match indexDoy with
  | some d => allWavelengths a d coeffs
  | none => match dayofyear with
    | none => .error .valueError
    | some d => allWavelengths a d coeffs

end Pvlib.Spectrl2
end
