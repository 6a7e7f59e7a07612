import Verif.Model.Spectrl2
import Verif.Props.Decomposition
import Verif.Props.Spec
import Mathlib.Analysis.Complex.ExponentialBounds

/-! # Property C154: the SPECTRL2 clear-sky spectrum -/

noncomputable section
open scoped Classical
namespace Pvlib.Props.Spectrl2
open Fl Pvlib.Tools Pvlib.Irradiance Pvlib.Atmosphere Pvlib.Spectrl2 Pvlib.Spec

/-- Physical inputs: sun not below the horizon, amounts not negative, albedos between 0 and 1, asymmetry factor at most 0.95. -/
structure In where
  (zen aoi tilt albedo pressure am pw ozone aod doy : ℝ)
  (ω400 : ℝ := 0.945)
  (α : ℝ := 1.14)
  (wvf : ℝ := 0.095)
  (g : ℝ := 0.65)

def In.args (i : In) : Args :=
  ⟨fin i.zen, fin i.aoi, fin i.tilt, fin i.albedo, fin i.pressure, fin i.am, fin i.pw, fin i.ozone, fin i.aod, fin i.ω400, fin i.α,
    fin i.wvf, fin i.g⟩

structure Physical (i : In) : Prop where
  zen : 0 ≤ cosDeg i.zen
  albedo : 0 ≤ i.albedo ∧ i.albedo ≤ 1
  pressure : 0 ≤ i.pressure
  am : 0 ≤ i.am
  pw : 0 ≤ i.pw
  ozone : 0 ≤ i.ozone
  aod : 0 ≤ i.aod
  ω400 : 0 ≤ i.ω400 ∧ i.ω400 ≤ 1
  wvf : 0 ≤ i.wvf
  g : 0 ≤ i.g ∧ i.g ≤ 0.95

/-! ### The table -/

/-- What the table's rows satisfy. -/
def RowOk (c : Coeff) : Prop := 300 ≤ c.wavelength ∧ 0 < c.et ∧ 0 ≤ c.vapor ∧ 0 ≤ c.ozone ∧ 0 ≤ c.mixed

theorem table : coeffs.length = 122 ∧ (coeffs.map (·.wavelength)).Pairwise (· < ·) ∧ ∀ c ∈ coeffs, RowOk c := by
  refine ⟨by decide +kernel, by decide +kernel, ?_⟩
  have : coeffs.all (fun c => 300 ≤ c.wavelength && 0 < c.et && 0 ≤ c.vapor && 0 ≤ c.ozone && 0 ≤ c.mixed) = true := by decide +kernel
  intro c hc
  have := List.all_eq_true.mp this c hc
  simp only [Bool.and_eq_true, decide_eq_true_eq] at this
  obtain ⟨⟨⟨⟨h1, h2⟩, h3⟩, h4⟩, h5⟩ := this
  exact ⟨h1, h2, h3, h4, h5⟩

/-! ### Transmittances over the reals -/

/-- Wavelength in micrometres. -/
def um (c : Coeff) : ℝ := c.wavelength / 1000
/-- Rayleigh transmittance. -/
def rayleigh (c : Coeff) (am p : ℝ) : ℝ := Real.exp (-(am * p / 101300) / (um c ^ 4 * (115.6406 - 1.3366 / um c ^ 2)))
/-- Band absorption by an amount `x`. -/
def band (a k x : ℝ) : ℝ := Real.exp (-a * x / (1 + k * x) ^ (0.45 : ℝ))
/-- Ozone air mass. -/
def ozoneMass (zen : ℝ) : ℝ := (1 + 22 / 6370) / Real.sqrt (cosDeg zen ^ 2 + 2 * (22 / 6370))
/-- Aerosol optical thickness. -/
def tau (c : Coeff) (aod α : ℝ) : ℝ := aod * ((c.wavelength : ℝ) / 500) ^ (-α)
/-- Single scattering albedo. -/
def omega (c : Coeff) (ω400 wvf : ℝ) : ℝ := ω400 * Real.exp (-wvf * Real.log ((c.wavelength : ℝ) / 400) ^ 2)

private theorem um_pos {c : Coeff} (h : RowOk c) : 0.3 ≤ um c := by
  have : (300 : ℝ) ≤ c.wavelength := by exact_mod_cast h.1
  unfold um
  rw [le_div_iff₀ (by norm_num)]
  norm_num; exact this

private theorem ray_den {c : Coeff} (h : RowOk c) : 0 < um c ^ 4 * (115.6406 - 1.3366 / um c ^ 2) := by
  have h0 := um_pos h
  have h1 : 0 < um c := by norm_num at h0 ⊢; linarith
  have h2 : (0.09 : ℝ) ≤ um c ^ 2 := by norm_num at h0 ⊢; nlinarith
  have h3 : 1.3366 / um c ^ 2 ≤ 15 := by
    rw [div_le_iff₀ (by positivity)]
    norm_num at h2 ⊢; linarith
  refine mul_pos (by positivity) ?_
  norm_num at h3 ⊢; linarith

private theorem band_fin {a k x : ℝ} (hk : 0 ≤ k) (hx : 0 ≤ x) :
    Fl.exp (fin (-a) * fin x / rpow (1 + fin k * fin x) (fin 0.45)) = fin (band a k x) := by
  have : 0 < 1 + k * x := by positivity
  rw [one_eq, fin_mul, fin_mul, fin_add, rpow_fin_pos this, fin_div (Real.rpow_pos_of_pos this _).ne', exp_fin]
  rfl

private theorem band_mono {a k x y : ℝ} (ha : 0 ≤ a) (hk : 0 ≤ k) (hx : 0 ≤ x) (hxy : x ≤ y) : band a k y ≤ band a k x := by
  have hy : 0 ≤ y := hx.trans hxy
  have px : 0 < 1 + k * x := by positivity
  have py : 0 < 1 + k * y := by positivity
  unfold band
  rw [Real.exp_le_exp]
  have key : ∀ z, 0 ≤ z → z / (1 + k * z) ^ (0.45 : ℝ) = z / (1 + k * z) * (1 + k * z) ^ (0.55 : ℝ) := by
    intro z hz
    have pz : 0 < 1 + k * z := by positivity
    have : (1 + k * z) ^ (0.45 : ℝ) * (1 + k * z) ^ (0.55 : ℝ) = 1 + k * z := by
      rw [← Real.rpow_add pz, show (0.45 : ℝ) + 0.55 = 1 by norm_num, Real.rpow_one]
    have h1 := (Real.rpow_pos_of_pos pz (0.45 : ℝ)).ne'
    rw [div_eq_iff h1, mul_assoc, mul_comm ((1 + k * z) ^ (0.55 : ℝ)), this, div_mul_cancel₀ _ pz.ne']
  have hm : x / (1 + k * x) ^ (0.45 : ℝ) ≤ y / (1 + k * y) ^ (0.45 : ℝ) := by
    rw [key x hx, key y hy]
    refine mul_le_mul ?_ (Real.rpow_le_rpow px.le (by nlinarith) (by norm_num)) (by positivity) (by positivity)
    rw [div_le_div_iff₀ px py]; nlinarith
  rw [mul_div_assoc, mul_div_assoc]
  nlinarith

private theorem band_pos (a k x : ℝ) : 0 < band a k x := Real.exp_pos _
private theorem band_le {a k x : ℝ} (ha : 0 ≤ a) (hk : 0 ≤ k) (hx : 0 ≤ x) : band a k x ≤ 1 := by
  have := band_mono ha hk (le_refl 0) hx
  simpa [band] using this

private theorem rayleigh_mono {c : Coeff} (h : RowOk c) {x y : ℝ} {p q : ℝ} (hxy : x * p ≤ y * q) : rayleigh c y q ≤ rayleigh c x p := by
  unfold rayleigh
  rw [Real.exp_le_exp]
  refine div_le_div_of_nonneg_right ?_ (ray_den h).le
  have : x * p / 101300 ≤ y * q / 101300 := div_le_div_of_nonneg_right hxy (by norm_num)
  linarith

private theorem rayleigh_le {c : Coeff} (h : RowOk c) {x p : ℝ} (hx : 0 ≤ x) (hp : 0 ≤ p) : rayleigh c x p ≤ 1 := by
  have := rayleigh_mono h (x := 0) (y := x) (p := 0) (q := p) (by rw [zero_mul]; positivity)
  simpa [rayleigh] using this

private theorem exp_le_one' {x : ℝ} (h : x ≤ 0) : Real.exp x ≤ 1 := Real.exp_le_one_iff.mpr h

private theorem cosd_fin (z : ℝ) : cosd (fin z) = fin (cosDeg z) := by simp [cosDeg, rad]

private theorem trans_fin {c : Coeff} (h : RowOk c) {zen am p pw o3 τ ω doy f : ℝ} (ham : 0 ≤ am) (hp : 0 ≤ p) (hpw : 0 ≤ pw)
    (hf : extraSpencer (fin doy) 1 = fin f) :
    transmittances c (fin zen) (fin am) (fin p) (fin pw) (fin o3) (fin τ) (fin ω) (fin doy) =
      ⟨fin f, fin (rayleigh c am p), fin (Real.exp (-τ * am)), fin (band 0.2385 20.07 (c.vapor * pw * am)),
        fin (Real.exp (-c.ozone * o3 * ozoneMass zen)), fin (band 1.41 118.3 (c.mixed * (am * p / 101300))),
        fin (Real.exp (-ω * τ * am)), fin (Real.exp (-(1 - ω) * τ * am))⟩ := by
  have e1 : (101300 : Fl) = fin 101300 := ofNat_eq
  have e2 : (1000 : Fl) = fin 1000 := ofNat_eq
  have e3 : (22 : Fl) = fin 22 := ofNat_eq
  have e4 : (6370 : Fl) = fin 6370 := ofNat_eq
  have e5 : (2 : Fl) = fin 2 := ofNat_eq
  have hv : (0 : ℝ) ≤ c.vapor := by exact_mod_cast h.2.2.1
  have hm : (0 : ℝ) ≤ c.mixed := by exact_mod_cast h.2.2.2.2
  have hu : (c.wavelength : ℝ) / 1000 = um c := rfl
  have hu0 : um c ≠ 0 := by have := um_pos h; norm_num at this; linarith
  have hs : 0 < cosDeg zen ^ 2 + 2 * (22 / 6370) := by positivity
  have hd : um c ^ 4 * (115.6406 - 1.3366 / um c ^ 2) ≠ 0 := (ray_den h).ne'
  unfold transmittances
  dsimp only
  rw [e1, e2, e3, e4, e5, hf, cosd_fin]
  simp only [fin_mul, neg_fin, fin_div (show (101300 : ℝ) ≠ 0 by norm_num), fin_div (show (1000 : ℝ) ≠ 0 by norm_num),
    fin_div (show (6370 : ℝ) ≠ 0 by norm_num), hu, fin_pow]
  simp only [one_eq, fin_add, fin_sub, neg_fin, fin_mul, fin_div (pow_ne_zero 2 hu0), fin_div hd, exp_fin, sqrt_fin hs.le,
    fin_div (Real.sqrt_pos.mpr hs).ne']
  have b1 := band_fin (a := 0.2385) (k := 20.07) (x := c.vapor * pw * am) (by norm_num) (by positivity)
  have b2 := band_fin (a := 1.41) (k := 118.3) (x := c.mixed * (am * p / 101300)) (by norm_num) (by positivity)
  rw [one_eq, fin_mul, fin_mul, fin_add] at b1 b2
  rw [b1, b2]
  rfl

/-- The exponent of the forward scattering fraction. -/
private def fexp (g u : ℝ) : ℝ :=
  let L := Real.log (1 - g)
  (L * (1.459 + L * (0.1595 + L * 0.4129)) + L * (0.0783 + L * (-0.3824 - L * 0.5874)) * u) * u

private theorem fexp_nonpos {g u : ℝ} (hg : 0 ≤ g ∧ g ≤ 0.95) (hu : 0 ≤ u ∧ u ≤ 1) : fexp g u ≤ 0 := by
  have h1 : (0.05 : ℝ) ≤ 1 - g := by have := hg.2; norm_num at this ⊢; linarith
  have h2 : Real.log (1 - g) ≤ 0 := Real.log_nonpos (by norm_num at h1; linarith) (by linarith [hg.1])
  have h3 : -3 ≤ Real.log (1 - g) := by
    rw [Real.le_log_iff_exp_le (by norm_num at h1; linarith)]
    refine le_trans ?_ h1
    have e := Real.exp_one_gt_d9
    have e3 : Real.exp 3 = Real.exp 1 ^ 3 := by rw [← Real.exp_nat_mul]; norm_num
    have : (20 : ℝ) ≤ Real.exp 3 := by
      rw [e3]
      have : (2.7182818283 : ℝ) ^ 3 ≤ Real.exp 1 ^ 3 := pow_le_pow_left₀ (by norm_num) e.le 3
      refine le_trans ?_ this
      norm_num
    rw [Real.exp_neg, show (0.05 : ℝ) = 20⁻¹ by norm_num]
    exact inv_anti₀ (by norm_num) this
  unfold fexp
  dsimp only
  generalize Real.log (1 - g) = L at *
  have q0 : 0 < 1.459 + L * (0.1595 + L * 0.4129) := by norm_num; nlinarith [sq_nonneg (L + 0.2)]
  have q1 : 0 ≤ (1.459 + L * (0.1595 + L * 0.4129)) + (0.0783 + L * (-0.3824 - L * 0.5874)) := by
    norm_num; nlinarith
  have q : 0 ≤ (1.459 + L * (0.1595 + L * 0.4129)) + (0.0783 + L * (-0.3824 - L * 0.5874)) * u := by
    generalize 1.459 + L * (0.1595 + L * 0.4129) = x at *
    generalize 0.0783 + L * (-0.3824 - L * 0.5874) = y at *
    have : x + y * u = x * (1 - u) + (x + y) * u := by ring
    rw [this]
    have := hu.2
    have h1u : 0 ≤ 1 - u := by linarith
    have := hu.1
    positivity
  have : (L * (1.459 + L * (0.1595 + L * 0.4129)) + L * (0.0783 + L * (-0.3824 - L * 0.5874)) * u) * u
      = L * u * ((1.459 + L * (0.1595 + L * 0.4129)) + (0.0783 + L * (-0.3824 - L * 0.5874)) * u) := by ring
  rw [this]
  exact mul_nonpos_of_nonpos_of_nonneg (mul_nonpos_of_nonpos_of_nonneg h2 hu.1) q

private theorem forward_fin {g u : ℝ} (hg : g ≤ 0.95) : forward (fin g) (fin u) = fin (1 - 0.5 * Real.exp (fexp g u)) := by
  have h1 : 0 < 1 - g := by norm_num at hg; linarith
  unfold forward
  dsimp only
  rw [one_eq, fin_sub, log_fin h1]
  simp only [fin_mul, fin_sub, fin_add, exp_fin]
  rfl

private theorem forwardPrime_fin {g : ℝ} (hg : g ≤ 0.95) : forwardPrime (fin g) = fin (1 - 0.5 * Real.exp (fexp g (1 / 1.8))) := by
  have h1 : 0 < 1 - g := by norm_num at hg; linarith
  unfold forwardPrime
  dsimp only
  rw [one_eq, fin_sub, log_fin h1]
  simp only [fin_mul, fin_sub, fin_add, exp_fin, fin_div (show (1.8 : ℝ) ≠ 0 by norm_num)]
  congr 4
  unfold fexp
  dsimp only
  rw [mul_one_div, mul_one_div]

/-! ### The outputs -/

/-- The seven spectral irradiances at one wavelength, over the reals. -/
structure Spectral where
  (dni_extra dhi dni poa_sky_diffuse poa_ground_diffuse poa_direct poa_global : ℝ)

/-- As the dict of `spectrl2`. -/
def Spectral.out (o : Spectral) (c : Coeff) : Out :=
  ⟨fin c.wavelength, fin o.dni_extra, fin o.dhi, fin o.dni, fin o.poa_sky_diffuse, fin o.poa_ground_diffuse, fin o.poa_direct,
    fin o.poa_global⟩

/-- The direct irradiance: the extraterrestrial one, attenuated by Rayleigh scattering, aerosol, water vapour, ozone and mixed
gases. -/
def direct (c : Coeff) (i : In) (f : ℝ) : ℝ :=
  c.et * f * rayleigh c i.am i.pressure * Real.exp (-tau c i.aod i.α * i.am) * band 0.2385 20.07 (c.vapor * i.pw * i.am)
    * Real.exp (-c.ozone * i.ozone * ozoneMass i.zen) * band 1.41 118.3 (c.mixed * (i.am * i.pressure / 101300))

/-- What must hold at every wavelength. -/
structure Ok (i : In) (o : Spectral) : Prop where
  extra : 0 < o.dni_extra
  dni : 0 < o.dni ∧ o.dni ≤ o.dni_extra
  dhi : 0 ≤ o.dhi
  poaDirect : 0 ≤ o.poa_direct ∧ o.poa_direct ≤ o.dni
  beam : o.poa_direct = o.dni * max (cosDeg i.aoi) 0
  sky : 0 ≤ o.poa_sky_diffuse
  hayDavies : o.poa_sky_diffuse = o.dhi * ((1 - o.dni / o.dni_extra) * ((1 + cosDeg i.tilt) / 2)
    + o.dni / o.dni_extra * (max (cosDeg i.aoi) 0 / max (cosDeg i.zen) 0.01745))
  ground : 0 ≤ o.poa_ground_diffuse
  reflected : o.poa_ground_diffuse = (o.dni * cosDeg i.zen + o.dhi) * i.albedo * ((1 - cosDeg i.tilt) / 2)
  global : o.poa_global = o.poa_direct + o.poa_sky_diffuse + o.poa_ground_diffuse
  energy : o.dni * cosDeg i.zen + o.dhi ≤ o.dni_extra * cosDeg i.zen / (1 - i.albedo / 2)

private theorem um_w {c : Coeff} (h : RowOk c) : (0 : ℝ) < c.wavelength := by
  have : (300 : ℝ) ≤ c.wavelength := by exact_mod_cast h.1
  linarith

private theorem tau_fin {c : Coeff} (h : RowOk c) (aod α : ℝ) :
    angstromAod (fin aod) 500 (fin α) (fin c.wavelength) = fin (tau c aod α) := by
  have e : (500 : Fl) = fin 500 := ofNat_eq
  have hw := um_w h
  unfold angstromAod
  rw [e, fin_div (by norm_num), neg_fin, rpow_fin_pos (by positivity), fin_mul]
  rfl

private theorem omega_fin {c : Coeff} (h : RowOk c) (ω wvf : ℝ) :
    fin ω * Fl.exp (-fin wvf * Fl.log (fin c.wavelength / 400) ^ 2) = fin (omega c ω wvf) := by
  have e : (400 : Fl) = fin 400 := ofNat_eq
  have hw := um_w h
  rw [e, fin_div (by norm_num), log_fin (by positivity), fin_pow, neg_fin, fin_mul, exp_fin, fin_mul]
  rfl

/-- The colour correction of the diffuse part. -/
private theorem cs_fin {c : Coeff} (h : RowOk c) :
    ∃ s : ℝ, npwhere (fin (c.wavelength : ℝ) ≤ 450) (rpow ((fin c.wavelength + 550) / 1000) (fin 1.8)) 1 = fin s ∧ 0 < s ∧ s ≤ 1 := by
  have e1 : (450 : Fl) = fin 450 := ofNat_eq
  have e2 : (550 : Fl) = fin 550 := ofNat_eq
  have e3 : (1000 : Fl) = fin 1000 := ofNat_eq
  have hw := um_w h
  unfold npwhere
  rw [e1, e2, e3, fin_le]
  by_cases hc : (c.wavelength : ℝ) ≤ 450
  · rw [if_pos hc, fin_add, fin_div (by norm_num), rpow_fin_pos (by positivity)]
    exact ⟨_, rfl, by positivity, Real.rpow_le_one (by positivity) (by rw [div_le_one (by norm_num)]; linarith) (by norm_num)⟩
  · rw [if_neg hc]
    exact ⟨1, one_eq, one_pos, le_refl 1⟩

private theorem half_exp {x : ℝ} (h : x ≤ 0) : 1 / 2 ≤ 1 - 0.5 * Real.exp x ∧ 1 - 0.5 * Real.exp x ≤ 1 := by
  have h1 := exp_le_one' h
  have h2 := Real.exp_pos x
  generalize Real.exp x = y at *
  constructor <;> norm_num <;> linarith

/-- The real arithmetic of the diffuse terms. -/
private theorem diffuse {E u Tr Tas Taa K Fs Cs rs rg : ℝ} (hE : 0 < E) (hu : 0 ≤ u) (hTr : 0 < Tr ∧ Tr ≤ 1) (hTas : 0 < Tas ∧ Tas ≤ 1)
    (hTaa : 0 < Taa ∧ Taa ≤ 1) (hK : 0 < K ∧ K ≤ 1) (hFs : 0 ≤ Fs ∧ Fs ≤ 1) (hCs : 0 < Cs ∧ Cs ≤ 1) (hrs : 0 ≤ rs ∧ rs ≤ 1 / 2)
    (hrg : 0 ≤ rg ∧ rg ≤ 1) :
    let Id := E * Tr * (Tas * Taa) * K
    let Ir := E * u * K * Taa * (1 - Tr ^ (0.95 : ℝ)) * 0.5
    let Ia := E * u * K * Taa * Tr ^ (1.5 : ℝ) * (1 - Tas) * Fs
    let Ig := (Id * u + Ir + Ia) * rs * rg / (1 - rs * rg)
    0 ≤ (Ir + Ia + Ig) * Cs ∧ Id * u + (Ir + Ia + Ig) * Cs ≤ E * u / (1 - rg / 2) := by
  intro Id Ir Ia Ig
  obtain ⟨hTr0, hTr1⟩ := hTr
  obtain ⟨hTas0, hTas1⟩ := hTas
  obtain ⟨hTaa0, hTaa1⟩ := hTaa
  obtain ⟨hK0, hK1⟩ := hK
  obtain ⟨hFs0, hFs1⟩ := hFs
  obtain ⟨hCs0, hCs1⟩ := hCs
  obtain ⟨hrs0, hrs1⟩ := hrs
  obtain ⟨hrg0, hrg1⟩ := hrg
  have hA : 0 ≤ E * u * K * Taa := by positivity
  have r95 : Tr ≤ Tr ^ (0.95 : ℝ) := by
    conv_lhs => rw [← Real.rpow_one Tr]
    exact Real.rpow_le_rpow_of_exponent_ge hTr0 hTr1 (by norm_num)
  have r95' : Tr ^ (0.95 : ℝ) ≤ 1 := Real.rpow_le_one hTr0.le hTr1 (by norm_num)
  have r15 : Tr ^ (1.5 : ℝ) ≤ Tr := by
    conv_rhs => rw [← Real.rpow_one Tr]
    exact Real.rpow_le_rpow_of_exponent_ge hTr0 hTr1 (by norm_num)
  have r15' : 0 < Tr ^ (1.5 : ℝ) := Real.rpow_pos_of_pos hTr0 _
  have hIr : 0 ≤ Ir := mul_nonneg (mul_nonneg hA (by linarith)) (by norm_num)
  have hIa : 0 ≤ Ia := mul_nonneg (mul_nonneg (mul_nonneg hA r15'.le) (by linarith)) hFs0
  have hId : 0 ≤ Id * u := by positivity
  have hrr : rs * rg ≤ rg / 2 := by nlinarith
  have hden : 0 < 1 - rs * rg := by nlinarith
  have hIg : 0 ≤ Ig := div_nonneg (by positivity) hden.le
  refine ⟨by positivity, ?_⟩
  have hG : Id * u + Ir + Ia ≤ E * u := by
    have e : Id * u + Ir + Ia = E * u * K * Taa * (Tr * Tas + (1 - Tr ^ (0.95 : ℝ)) * 0.5 + Tr ^ (1.5 : ℝ) * (1 - Tas) * Fs) := by
      simp only [Id, Ir, Ia]; ring
    have b : Tr * Tas + (1 - Tr ^ (0.95 : ℝ)) * 0.5 + Tr ^ (1.5 : ℝ) * (1 - Tas) * Fs ≤ 1 := by
      have : Tr ^ (1.5 : ℝ) * (1 - Tas) * Fs ≤ Tr * (1 - Tas) * 1 := by
        refine mul_le_mul (mul_le_mul_of_nonneg_right r15 (by linarith)) hFs1 hFs0 (mul_nonneg hTr0.le (by linarith))
      norm_num at *
      nlinarith
    have b0 : 0 ≤ Tr * Tas + (1 - Tr ^ (0.95 : ℝ)) * 0.5 + Tr ^ (1.5 : ℝ) * (1 - Tas) * Fs := by
      have : 0 ≤ 1 - Tr ^ (0.95 : ℝ) := by linarith
      have : 0 ≤ 1 - Tas := by linarith
      positivity
    have hEu : 0 ≤ E * u := by positivity
    rw [e]
    have : E * u * K * Taa ≤ E * u := by
      calc E * u * K * Taa ≤ E * u * 1 * 1 := by gcongr
        _ = E * u := by ring
    calc _ ≤ E * u * 1 := mul_le_mul this b b0 hEu
      _ = E * u := mul_one _
  have hsum : Id * u + (Ir + Ia + Ig) * Cs ≤ Id * u + (Ir + Ia + Ig) := by nlinarith [add_nonneg (add_nonneg hIr hIa) hIg]
  have htot : Id * u + (Ir + Ia + Ig) = (Id * u + Ir + Ia) / (1 - rs * rg) := by
    have e : (Id * u + Ir + Ia) + (Id * u + Ir + Ia) * rs * rg / (1 - rs * rg) = (Id * u + Ir + Ia) / (1 - rs * rg) := by
      rw [eq_div_iff hden.ne', add_mul, div_mul_cancel₀ _ hden.ne']; ring
    rw [← e]; simp only [Ig]; ring
  refine hsum.trans ?_
  rw [htot]
  have hd2 : 0 < 1 - rg / 2 := by linarith
  refine div_le_div₀ (by positivity) hG hd2 (by linarith)

set_option maxHeartbeats 1000000 in
private theorem core (i : In) (h : Physical i) {c : Coeff} (hr : RowOk c) {f : ℝ} (hf : extraSpencer (fin i.doy) 1 = fin f)
    (fpos : 0 < f) : ∃ o : Spectral, atWavelength c i.args (fin i.doy) = .ok (o.out c) ∧ Ok i o ∧ o.dni_extra = c.et * f ∧
      o.dni = direct c i f := by
  obtain ⟨Cs, hCs, Cs0, Cs1⟩ := cs_fin hr
  have het : (0 : ℝ) < c.et := by exact_mod_cast hr.2.1
  have hv : (0 : ℝ) ≤ c.vapor := by exact_mod_cast hr.2.2.1
  have ho : (0 : ℝ) ≤ c.ozone := by exact_mod_cast hr.2.2.2.1
  have hm : (0 : ℝ) ≤ c.mixed := by exact_mod_cast hr.2.2.2.2
  have ham := h.am
  have hp := h.pressure
  have hpw := h.pw
  have ho3 := h.ozone
  have hτ : 0 ≤ tau c i.aod i.α := mul_nonneg h.aod (Real.rpow_nonneg (div_nonneg (um_w hr).le (by norm_num)) _)
  have hω0 : 0 ≤ omega c i.ω400 i.wvf := mul_nonneg h.ω400.1 (Real.exp_pos _).le
  have hω1 : omega c i.ω400 i.wvf ≤ 1 := by
    have : Real.exp (-i.wvf * Real.log ((c.wavelength : ℝ) / 400) ^ 2) ≤ 1 := exp_le_one' (by
      have := h.wvf
      nlinarith [sq_nonneg (Real.log ((c.wavelength : ℝ) / 400))])
    exact mul_le_one₀ h.ω400.2 (Real.exp_pos _).le this
  have hom : 0 ≤ ozoneMass i.zen := by unfold ozoneMass; positivity
  have u1 : cosDeg i.zen ≤ 1 := Real.cos_le_one _
  unfold atWavelength
  dsimp only [In.args]
  rw [tau_fin hr, omega_fin hr, hCs, cosd_fin, cosd_fin, forward_fin h.g.2, forwardPrime_fin h.g.2,
    trans_fin hr ham hp hpw hf, trans_fin hr (by norm_num) hp hpw hf]
  dsimp only
  have F0 := fexp_nonpos h.g ⟨h.zen, u1⟩
  have F1 := fexp_nonpos h.g (u := 1 / 1.8) ⟨by norm_num, by norm_num⟩
  have hτam : 0 ≤ tau c i.aod i.α * i.am := mul_nonneg hτ ham
  have hTa : Real.exp (-tau c i.aod i.α * i.am) =
      Real.exp (-omega c i.ω400 i.wvf * tau c i.aod i.α * i.am) * Real.exp (-(1 - omega c i.ω400 i.wvf) * tau c i.aod i.α * i.am) := by
    rw [← Real.exp_add]; congr 1; ring
  have hTr : 0 < rayleigh c i.am i.pressure ∧ rayleigh c i.am i.pressure ≤ 1 := ⟨Real.exp_pos _, rayleigh_le hr ham hp⟩
  have hTw : 0 < band 0.2385 20.07 (c.vapor * i.pw * i.am) ∧ band 0.2385 20.07 (c.vapor * i.pw * i.am) ≤ 1 :=
    ⟨band_pos _ _ _, band_le (by norm_num) (by norm_num) (by positivity)⟩
  have hTu : 0 < band 1.41 118.3 (c.mixed * (i.am * i.pressure / 101300)) ∧ band 1.41 118.3 (c.mixed * (i.am * i.pressure / 101300)) ≤ 1 :=
    ⟨band_pos _ _ _, band_le (by norm_num) (by norm_num) (by positivity)⟩
  have hTo : 0 < Real.exp (-c.ozone * i.ozone * ozoneMass i.zen) ∧ Real.exp (-c.ozone * i.ozone * ozoneMass i.zen) ≤ 1 :=
    ⟨Real.exp_pos _, exp_le_one' (by rw [neg_mul, neg_mul]; exact neg_nonpos.mpr (by positivity))⟩
  have hTas : ∀ a : ℝ, 0 ≤ a → 0 < Real.exp (-omega c i.ω400 i.wvf * tau c i.aod i.α * a) ∧
      Real.exp (-omega c i.ω400 i.wvf * tau c i.aod i.α * a) ≤ 1 := fun a ha =>
    ⟨Real.exp_pos _, exp_le_one' (by rw [neg_mul, neg_mul]; exact neg_nonpos.mpr (by positivity))⟩
  have hTaa : ∀ a : ℝ, 0 ≤ a → 0 < Real.exp (-(1 - omega c i.ω400 i.wvf) * tau c i.aod i.α * a) ∧
      Real.exp (-(1 - omega c i.ω400 i.wvf) * tau c i.aod i.α * a) ≤ 1 := fun a ha =>
    ⟨Real.exp_pos _, exp_le_one' (by
      have : 0 ≤ 1 - omega c i.ω400 i.wvf := by linarith
      rw [neg_mul, neg_mul]; exact neg_nonpos.mpr (by positivity))⟩
  have hTrp : 0 < rayleigh c 1.8 i.pressure ∧ rayleigh c 1.8 i.pressure ≤ 1 := ⟨Real.exp_pos _, rayleigh_le hr (by norm_num) hp⟩
  have hTwp : 0 < band 0.2385 20.07 (c.vapor * i.pw * 1.8) ∧ band 0.2385 20.07 (c.vapor * i.pw * 1.8) ≤ 1 :=
    ⟨band_pos _ _ _, band_le (by norm_num) (by norm_num) (by positivity)⟩
  have hTup : 0 < band 1.41 118.3 (c.mixed * (1.8 * i.pressure / 101300)) ∧ band 1.41 118.3 (c.mixed * (1.8 * i.pressure / 101300)) ≤ 1 :=
    ⟨band_pos _ _ _, band_le (by norm_num) (by norm_num) (by positivity)⟩
  have hTas1 := hTas i.am ham
  have hTaa1 := hTaa i.am ham
  have hTasp := hTas 1.8 (by norm_num)
  have hTaap := hTaa 1.8 (by norm_num)
  have hE : 0 < (c.et : ℝ) * f := mul_pos het fpos
  have hFs : 0 ≤ 1 - 0.5 * Real.exp (fexp i.g (cosDeg i.zen)) ∧ 1 - 0.5 * Real.exp (fexp i.g (cosDeg i.zen)) ≤ 1 :=
    ⟨le_trans (by norm_num) (half_exp F0).1, (half_exp F0).2⟩
  have hFp := half_exp F1
  unfold direct
  rw [hTa]
  have hu0 := h.zen
  obtain ⟨hrg0, hrg1⟩ := h.albedo
  generalize rayleigh c i.am i.pressure = Tr at *
  generalize band 0.2385 20.07 (c.vapor * i.pw * i.am) = Tw at *
  generalize band 1.41 118.3 (c.mixed * (i.am * i.pressure / 101300)) = Tu at *
  generalize Real.exp (-c.ozone * i.ozone * ozoneMass i.zen) = To at *
  generalize Real.exp (-omega c i.ω400 i.wvf * tau c i.aod i.α * i.am) = Tas at *
  generalize Real.exp (-(1 - omega c i.ω400 i.wvf) * tau c i.aod i.α * i.am) = Taa at *
  generalize rayleigh c 1.8 i.pressure = Trp at *
  generalize band 0.2385 20.07 (c.vapor * i.pw * 1.8) = Twp at *
  generalize band 1.41 118.3 (c.mixed * (1.8 * i.pressure / 101300)) = Tup at *
  generalize Real.exp (-omega c i.ω400 i.wvf * tau c i.aod i.α * 1.8) = Tasp at *
  generalize Real.exp (-(1 - omega c i.ω400 i.wvf) * tau c i.aod i.α * 1.8) = Taap at *
  generalize 1 - 0.5 * Real.exp (fexp i.g (cosDeg i.zen)) = Fs at *
  generalize 1 - 0.5 * Real.exp (fexp i.g (1 / 1.8)) = Fp at *
  have hrs : 0 ≤ Tup * Twp * Taap * (0.5 * (1 - Trp) + (1 - Fp) * Trp * (1 - Tasp)) ∧
      Tup * Twp * Taap * (0.5 * (1 - Trp) + (1 - Fp) * Trp * (1 - Tasp)) ≤ 1 / 2 := by
    have a1 : 0 ≤ 1 - Trp := by linarith [hTrp.2]
    have a2 : 0 ≤ 1 - Fp := by linarith [hFp.2]
    have a3 : 0 ≤ 1 - Tasp := by linarith [hTasp.2]
    have a4 := hTrp.1
    have a5 := hTup.1
    have a6 := hTwp.1
    have a7 := hTaap.1
    refine ⟨by positivity, ?_⟩
    have b1 : Tup * Twp * Taap ≤ 1 := mul_le_one₀ (mul_le_one₀ hTup.2 a6.le hTwp.2) a7.le hTaap.2
    have b2 : (1 - Fp) * Trp * (1 - Tasp) ≤ 1 / 2 * Trp * 1 := by
      have := hFp.1
      have := hTasp.1
      gcongr <;> linarith
    have b3 : 0.5 * (1 - Trp) + (1 - Fp) * Trp * (1 - Tasp) ≤ 1 / 2 := by norm_num at *; linarith
    calc _ ≤ 1 * (1 / 2 : ℝ) := mul_le_mul b1 b3 (by positivity) (by norm_num)
      _ = 1 / 2 := one_mul _
  have hK : 0 < To * Tu * Tw ∧ To * Tu * Tw ≤ 1 :=
    ⟨mul_pos (mul_pos hTo.1 hTu.1) hTw.1, mul_le_one₀ (mul_le_one₀ hTo.2 hTu.1.le hTu.2) hTw.1.le hTw.2⟩
  have D := diffuse hE hu0 hTr hTas1 hTaa1 hK hFs ⟨Cs0, Cs1⟩ hrs ⟨hrg0, hrg1⟩
  have e01 : (0 : Fl) = fin 0 := zero_eq
  simp only [one_eq, e01, fin_mul, fin_sub, fin_add, rpow_fin_pos hTr.1]
  generalize Tup * Twp * Taap * (0.5 * (1 - Trp) + (1 - Fp) * Trp * (1 - Tasp)) = rs at *
  have hden : 1 - rs * i.albedo ≠ 0 := by nlinarith
  have hmx : max (cosDeg i.zen) 0.01745 ≠ 0 := (lt_of_lt_of_le (by norm_num) (le_max_right _ _)).ne'
  simp only [fin_div hden, maximum_fin, fin_mul, fin_add, fin_div hmx, haydaviesRb, fin_div hE.ne', groundDiffuse]
  have eB : (c.et : ℝ) * f * Tr * (Tas * Taa) * (To * Tu * Tw) = c.et * f * Tr * (Tas * Taa) * Tw * To * Tu := by ring
  have eC : (c.et : ℝ) * f * cosDeg i.zen * (To * Tu * Tw) * Taa = c.et * f * cosDeg i.zen * To * Tu * Tw * Taa := by ring
  dsimp only at D
  rw [eB, eC] at D
  have B0 : 0 < (c.et : ℝ) * f * Tr * (Tas * Taa) * Tw * To * Tu := by
    have := hTr.1; have := hTas1.1; have := hTaa1.1; have := hTw.1; have := hTo.1; have := hTu.1
    positivity
  have B1 : (c.et : ℝ) * f * Tr * (Tas * Taa) * Tw * To * Tu ≤ c.et * f := by
    rw [← eB]
    have := mul_le_one₀ (mul_le_one₀ hTr.2 (mul_pos hTas1.1 hTaa1.1).le (mul_le_one₀ hTas1.2 hTaa1.1.le hTaa1.2)) hK.1.le hK.2
    calc _ = c.et * f * (Tr * (Tas * Taa) * (To * Tu * Tw)) := by ring
      _ ≤ c.et * f * 1 := mul_le_mul_of_nonneg_left this hE.le
      _ = c.et * f := mul_one _
  generalize (c.et : ℝ) * f * Tr * (Tas * Taa) * Tw * To * Tu = B at *
  generalize ((c.et : ℝ) * f * cosDeg i.zen * To * Tu * Tw * Taa * (1 - Tr ^ (0.95 : ℝ)) * 0.5 + _ + _) * Cs = S at *
  have A1 : B / (c.et * f) ≤ 1 := (div_le_one hE).mpr B1
  have A0 : 0 < B / (c.et * f) := div_pos B0 hE
  have et : cosDeg i.tilt ≤ 1 ∧ -1 ≤ cosDeg i.tilt := ⟨Real.cos_le_one _, Real.neg_one_le_cos _⟩
  have er : (fin i.tilt).radians.cos = fin (cosDeg i.tilt) := cosd_fin i.tilt
  have ea : max (cosDeg i.aoi) 0 ≤ 1 := max_le (Real.cos_le_one _) (by norm_num)
  have ea0 : 0 ≤ max (cosDeg i.aoi) 0 := le_max_right _ _
  have em : 0 < max (cosDeg i.zen) 0.01745 := lt_of_lt_of_le (by norm_num) (le_max_right _ _)
  have h05 : (0.5 : Fl) = fin 0.5 := ofScientific_eq _ _ _
  obtain ⟨D0, D1⟩ := D
  have m1 : 0 ≤ S * (1 - B / (c.et * f)) * (0.5 * (1 + cosDeg i.tilt)) :=
    mul_nonneg (mul_nonneg D0 (by linarith)) (mul_nonneg (by norm_num) (by linarith))
  have m2 : 0 ≤ S * (B / (c.et * f) * (max (cosDeg i.aoi) 0 / max (cosDeg i.zen) 0.01745)) := by positivity
  have m3 : 0 ≤ (B * cosDeg i.zen + S) * i.albedo * (1 - cosDeg i.tilt) * 0.5 :=
    mul_nonneg (mul_nonneg (by positivity) (by linarith)) (by norm_num)
  rw [er, cosd_fin, h05, one_eq, zero_eq]
  simp only [fin_sub, fin_add, fin_mul, maximum_fin, max_eq_left m1, max_eq_left m2]
  refine ⟨⟨c.et * f, S, B, S * (1 - B / (c.et * f)) * (0.5 * (1 + cosDeg i.tilt))
      + S * (B / (c.et * f) * (max (cosDeg i.aoi) 0 / max (cosDeg i.zen) 0.01745)),
    (B * cosDeg i.zen + S) * i.albedo * (1 - cosDeg i.tilt) * 0.5, B * max (cosDeg i.aoi) 0, _⟩, rfl, ?_, rfl, rfl⟩
  constructor
  · exact hE
  · exact ⟨B0, B1⟩
  · exact D0
  · exact ⟨mul_nonneg B0.le ea0, mul_le_of_le_one_right B0.le ea⟩
  · rfl
  · exact add_nonneg m1 m2
  · dsimp only; norm_num; ring
  · exact m3
  · dsimp only; norm_num; ring
  · rfl
  · exact D1

/-- **C154 (one wavelength).** Whatever the day, at physical inputs every component at every wavelength is a finite number: positive
direct irradiance at most the extraterrestrial one, nonnegative diffuse and reflected components that sum to the total, and
horizontal irradiance at most what enters, amplified by at most the reflections between ground and sky. -/
theorem physical_row (i : In) (h : Physical i) {c : Coeff} (hc : c ∈ coeffs) :
    ∃ o : Spectral, atWavelength c i.args (fin i.doy) = .ok (o.out c) ∧ Ok i o ∧
      ∃ f : ℝ, 0.96 ≤ f ∧ f ≤ 1.04 ∧ extraSpencer (fin i.doy) 1 = fin f ∧ o.dni_extra = c.et * f ∧ o.dni = direct c i f := by
  obtain ⟨f, hf, f0, f1⟩ := Decomposition.extraSpencer_fin i.doy 1
  rw [one_mul] at hf
  rw [← one_eq] at hf
  obtain ⟨o, h1, h2, h3, h4⟩ := core i h (table.2.2 c hc) hf (by norm_num at f0; linarith)
  exact ⟨o, h1, h2, f, f0, f1, hf, h3, h4⟩

private theorem all_ok (i : In) (h : Physical i) (l : List Coeff) (hl : ∀ c ∈ l, c ∈ coeffs) :
    ∃ os : List Spectral, allWavelengths i.args (fin i.doy) l = .ok (List.zipWith (fun o c => o.out c) os l) ∧ os.length = l.length ∧
      ∀ o ∈ os, Ok i o := by
  induction l with
  | nil => exact ⟨[], rfl, rfl, fun o ho => absurd ho (by simp)⟩
  | cons c cs ih =>
    obtain ⟨o, ho, hok, -⟩ := physical_row i h (hl c (by simp))
    obtain ⟨os, hos, hlen, hall⟩ := ih (fun d hd => hl d (by simp [hd]))
    refine ⟨o :: os, ?_, by simp [hlen], ?_⟩
    · simp only [allWavelengths, ho, hos]
      rfl
    · intro x hx
      rcases List.mem_cons.mp hx with rfl | hx
      · exact hok
      · exact hall x hx

/-- **C154 (the call).** With a day of the year, or with Series inputs whose index gives one (which then wins), the call at physical
inputs returns, in increasing order of wavelength, 122 physical values for each quantity. -/
theorem call (i : In) (h : Physical i) (day : Option Fl) :
    ∃ os : List Spectral, os.length = 122 ∧ (∀ o ∈ os, Ok i o) ∧
      spectrl2 i.args (some (fin i.doy)) none = .ok (List.zipWith (fun o c => o.out c) os coeffs) ∧
      spectrl2 i.args day (some (fin i.doy)) = .ok (List.zipWith (fun o c => o.out c) os coeffs) := by
  obtain ⟨os, h1, h2, h3⟩ := all_ok i h coeffs (fun c hc => hc)
  exact ⟨os, by rw [h2]; exact table.1, h3, h1, h1⟩

/-- **C154 (missing day).** Without a Series index, `dayofyear` is required. -/
theorem day_required (a : Args) : spectrl2 a none none = .error .valueError := rfl

/-- **C154 (attenuation).** More air, pressure, water vapour, ozone or aerosol never increases the direct irradiance, at any
wavelength. -/
theorem attenuation (i j : In) (hi : Physical i) (hj : Physical j) (hz : j.zen = i.zen) (hd : j.doy = i.doy) (hα : j.α = i.α)
    (ham : i.am ≤ j.am) (hp : i.pressure ≤ j.pressure) (hw : i.pw ≤ j.pw) (ho : i.ozone ≤ j.ozone) (ha : i.aod ≤ j.aod)
    {c : Coeff} (hc : c ∈ coeffs) :
    ∃ o o' : Spectral, atWavelength c i.args (fin i.doy) = .ok (o.out c) ∧ atWavelength c j.args (fin j.doy) = .ok (o'.out c) ∧
      o'.dni_extra = o.dni_extra ∧ o'.dni ≤ o.dni := by
  obtain ⟨o, o1, -, f, f0, -, of, oe, od⟩ := physical_row i hi hc
  obtain ⟨o', o1', -, f', f0', -, of', oe', od'⟩ := physical_row j hj hc
  rw [hd, of] at of'
  have ff : f' = f := (fin.inj of').symm
  subst ff
  refine ⟨o, o', o1, o1', by rw [oe, oe'], ?_⟩
  rw [od, od']
  have hr := table.2.2 c hc
  have het : (0 : ℝ) < c.et := by exact_mod_cast hr.2.1
  have hv : (0 : ℝ) ≤ c.vapor := by exact_mod_cast hr.2.2.1
  have hoz : (0 : ℝ) ≤ c.ozone := by exact_mod_cast hr.2.2.2.1
  have hm : (0 : ℝ) ≤ c.mixed := by exact_mod_cast hr.2.2.2.2
  have fpos : 0 < f' := by norm_num at f0; linarith
  have a1 := hi.am
  have a2 := hi.pressure
  have a3 := hi.pw
  have a4 := hi.ozone
  have a5 := hi.aod
  have b1 := hj.am
  have b3 := hj.pw
  have hpp : i.am * i.pressure ≤ j.am * j.pressure := mul_le_mul ham hp a2 b1
  have g1 := rayleigh_mono hr hpp
  have hw0 : 0 ≤ ((c.wavelength : ℝ) / 500) ^ (-i.α) := Real.rpow_nonneg (div_nonneg (um_w hr).le (by norm_num)) _
  have g2 : Real.exp (-tau c j.aod j.α * j.am) ≤ Real.exp (-tau c i.aod i.α * i.am) := by
    rw [Real.exp_le_exp, neg_mul, neg_mul, neg_le_neg_iff, hα]
    have : tau c i.aod i.α ≤ tau c j.aod i.α := mul_le_mul_of_nonneg_right ha hw0
    exact mul_le_mul this ham a1 (mul_nonneg (a5.trans ha) hw0)
  have g3 : band 0.2385 20.07 (c.vapor * j.pw * j.am) ≤ band 0.2385 20.07 (c.vapor * i.pw * i.am) :=
    band_mono (by norm_num) (by norm_num) (by positivity) (by gcongr)
  have g4 : band 1.41 118.3 (c.mixed * (j.am * j.pressure / 101300)) ≤ band 1.41 118.3 (c.mixed * (i.am * i.pressure / 101300)) :=
    band_mono (by norm_num) (by norm_num) (by positivity) (by gcongr)
  have hom : 0 ≤ ozoneMass i.zen := by unfold ozoneMass; positivity
  have g5 : Real.exp (-c.ozone * j.ozone * ozoneMass j.zen) ≤ Real.exp (-c.ozone * i.ozone * ozoneMass i.zen) := by
    rw [Real.exp_le_exp, hz, neg_mul, neg_mul, neg_mul, neg_mul, neg_le_neg_iff]
    gcongr
  have p1 : 0 ≤ rayleigh c j.am j.pressure := (Real.exp_pos _).le
  unfold direct
  have p2 := band_pos 0.2385 20.07 (c.vapor * j.pw * j.am)
  have p3 := band_pos 1.41 118.3 (c.mixed * (j.am * j.pressure / 101300))
  have p4 := band_pos 0.2385 20.07 (c.vapor * i.pw * i.am)
  have p5 : 0 ≤ rayleigh c i.am i.pressure := (Real.exp_pos _).le
  generalize band 0.2385 20.07 (c.vapor * j.pw * j.am) = x1 at *
  generalize band 1.41 118.3 (c.mixed * (j.am * j.pressure / 101300)) = x2 at *
  generalize band 0.2385 20.07 (c.vapor * i.pw * i.am) = x3 at *
  generalize rayleigh c i.am i.pressure = x4 at *
  generalize rayleigh c j.am j.pressure = x5 at *
  gcongr

/-- The bound on the asymmetry factor in `Physical` cannot be dropped: at 0.99 the forward scattering "fraction" of aerosols is
negative under an overhead sun. -/
theorem forward_negative : ∃ F : ℝ, forward (fin 0.99) (fin 1) = fin F ∧ F < 0 := by
  have h1 : (0 : ℝ) < 1 - 0.99 := by norm_num
  have hL : Real.log (1 - 0.99) ≤ -4 := by
    rw [Real.log_le_iff_le_exp h1, Real.exp_neg, show (1 - 0.99 : ℝ) = 100⁻¹ by norm_num]
    refine inv_anti₀ (Real.exp_pos _) ?_
    have e := Real.exp_one_lt_d9
    have e4 : Real.exp 4 = Real.exp 1 ^ 4 := by rw [← Real.exp_nat_mul]; norm_num
    rw [e4]
    have : Real.exp 1 ^ 4 ≤ (2.7182818286 : ℝ) ^ 4 := pow_le_pow_left₀ (Real.exp_pos _).le e.le 4
    refine this.trans ?_
    norm_num
  refine ⟨1 - 0.5 * Real.exp (fexp 0.99 1), ?_, ?_⟩
  · unfold forward
    dsimp only
    rw [one_eq, fin_sub, log_fin h1]
    simp only [fin_mul, fin_sub, fin_add, exp_fin]
    rfl
  · have : 1 < fexp 0.99 1 := by
      unfold fexp
      dsimp only
      generalize Real.log (1 - 0.99) = L at *
      norm_num
      nlinarith [mul_nonneg (neg_nonneg.mpr (hL.trans (by norm_num))) (sq_nonneg (L + 4))]
    have h2 := Real.add_one_le_exp (fexp 0.99 1)
    generalize Real.exp (fexp 0.99 1) = y at *
    norm_num
    linarith

/-- A July noon in Golden, Colorado. -/
def golden : In :=
  { zen := 20, aoi := 25, tilt := 40, albedo := 0.2, pressure := 82000, am := 1.06, pw := 1.4, ozone := 0.31, aod := 0.1, doy := 190 }

example : Physical golden := by
  refine ⟨?_, ⟨by norm_num [golden], by norm_num [golden]⟩, by norm_num [golden], by norm_num [golden], by norm_num [golden],
    by norm_num [golden], by norm_num [golden], ⟨by norm_num [golden], by norm_num [golden]⟩, by norm_num [golden],
    ⟨by norm_num [golden], by norm_num [golden]⟩⟩
  refine Real.cos_nonneg_of_mem_Icc ⟨?_, ?_⟩ <;> simp only [golden, rad] <;> linarith [Real.pi_pos]

end Pvlib.Props.Spectrl2
end
