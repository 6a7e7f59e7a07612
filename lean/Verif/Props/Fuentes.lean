import Verif.Model.Temperature

/-! # Property C56: `pvlib.temperature.fuentes` (transient module temperature) -/

noncomputable section
open scoped Classical
open Real
namespace Pvlib.Props.Fuentes
open Fl Pvlib.Temperature

/-- The convective coefficient is a positive number whenever its inputs are physical. -/
private theorem hconv_pos {tave v dT x tilt : ℝ} (ht : 0 < tave) (hv : 0 < v) (hd : 0 ≤ dT) (hx : 0 < x)
    (hs : 0 ≤ Real.sin (tilt * (π / 180))) (c : Prop) :
    ∃ h, fuentesHconv (fin tave) (fin v) (fin dT) (fin x) (fin tilt) c = fin h ∧ 0 < h := by
  have h1 : (0 : ℝ) < 0.003484 * 101325 / tave := by positivity
  have h2 : (0 : ℝ) < 0.24237e-6 * tave ^ (0.76 : ℝ) / (0.003484 * 101325 / tave) := by positivity
  set dens := (0.003484 : ℝ) * 101325 / tave with hdens
  set vis := (0.24237e-6 : ℝ) * tave ^ (0.76 : ℝ) / dens with hvis
  have h3 : (0 : ℝ) < v * x / vis := by positivity
  set re := v * x / vis with hre
  have p1 : 0 < re ^ (0.2 : ℝ) := Real.rpow_pos_of_pos h3 _
  have p2 : 0 < re ^ (0.5 : ℝ) := Real.rpow_pos_of_pos h3 _
  have p3 : 0 < (0.71 : ℝ) ^ (0.4 : ℝ) := Real.rpow_pos_of_pos (by norm_num) _
  have p4 : 0 < (0.71 : ℝ) ^ (0.67 : ℝ) := Real.rpow_pos_of_pos (by norm_num) _
  have p5 : 0 < vis ^ 2 := by positivity
  set gr := 9.8 / tave * dT * x ^ 3 / vis ^ 2 * Real.sin (tilt * (π / 180)) with hgr
  have hg0 : 0 ≤ gr * 0.71 := by positivity
  set hfree := 0.21 * (gr * 0.71) ^ (0.32 : ℝ) * (2.1695e-4 * tave ^ (0.84 : ℝ)) / x with hfr
  have hf0 : 0 ≤ hfree := by positivity
  have h71 : (0 : ℝ) < 0.71 := by norm_num
  have hforce : ∃ f : ℝ, 0 < f ∧
      (if c ∧ (1.2e5 : Fl) < fin re then
        (0.0282 : Fl) / Fl.rpow (fin re) 0.2 * fin dens * fin v * 1007 / Fl.rpow 0.71 0.4
      else
        0.8600 / Fl.rpow (fin re) 0.5 * fin dens * fin v * 1007 / Fl.rpow 0.71 0.67) = fin f := by
    split_ifs
    · refine ⟨0.0282 / re ^ (0.2 : ℝ) * dens * v * 1007 / (0.71 : ℝ) ^ (0.4 : ℝ), by positivity, ?_⟩
      simp only [ofScientific_eq, ofNat_eq]
      rw [rpow_fin_pos h3, rpow_fin_pos h71, fin_div p1.ne']
      simp only [fin_mul]
      rw [fin_div p3.ne']
    · refine ⟨0.8600 / re ^ (0.5 : ℝ) * dens * v * 1007 / (0.71 : ℝ) ^ (0.67 : ℝ), by positivity, ?_⟩
      simp only [ofScientific_eq, ofNat_eq]
      rw [rpow_fin_pos h3, rpow_fin_pos h71, fin_div p2.ne']
      simp only [fin_mul]
      rw [fin_div p4.ne']
  obtain ⟨f, hf, hfe⟩ := hforce
  refine ⟨(hfree ^ 3 + f ^ 3) ^ ((1 : ℝ) / 3), ?_, by positivity⟩
  have e1 : (0.003484 : Fl) * 101325 / fin tave = fin dens := by
    simp only [ofScientific_eq, ofNat_eq, fin_mul, fin_div ht.ne']; rfl
  have e2 : (0.24237e-6 : Fl) * Fl.rpow (fin tave) 0.76 / fin dens = fin vis := by
    simp only [ofScientific_eq, rpow_fin_pos ht, fin_mul, fin_div h1.ne']; rfl
  have e3 : fin v * fin x / fin vis = fin re := by
    simp only [fin_mul, fin_div h2.ne']; rfl
  have e4 : (9.8 : Fl) / fin tave * fin dT * fin x ^ 3 / fin vis ^ 2 * Tools.sind (fin tilt) = fin gr := by
    simp only [ofScientific_eq, fin_div ht.ne', fin_mul, fin_pow, fin_div p5.ne', Tools.sind_fin]; rfl
  have e5 : (0.21 : Fl) * Fl.rpow (fin gr * 0.71) 0.32 * (2.1695e-4 * Fl.rpow (fin tave) 0.84) / fin x =
      fin hfree := by
    simp only [ofScientific_eq, fin_mul]
    rw [rpow_fin_nonneg hg0 (by norm_num), rpow_fin_pos ht]
    simp only [fin_mul, fin_div hx.ne']; rfl
  unfold fuentesHconv
  simp only [e1, e2, e3, e4, e5, hfe]
  simp only [fin_pow, fin_add]
  have h3' : (0 : ℝ) < hfree ^ 3 + f ^ 3 := by positivity
  simp only [one_eq, ofNat_eq]
  rw [fin_div (by norm_num : (3 : ℝ) ≠ 0), rpow_fin_pos h3']

/-- What the loop needs from the parameters. -/
structure Good (s : FuentesSetup) : Prop where
  rad : ∃ e b, s.emiss = fin e ∧ s.boltz = fin b ∧ 0 < e ∧ 0 < b
  len : ∃ x, s.xlen = fin x ∧ 0 < x
  tilt : ∃ t, s.tilt = fin t ∧ 0 ≤ Real.sin (t * (π / 180))
  grd : ∃ g, s.tgrat = fin g ∧ 0 ≤ g ∧ g ≤ 1
  conv : ∃ c, s.convrat = fin c ∧ 0 ≤ c
  cap : ∃ c, s.cap = fin c ∧ 0 < c

/-- The physical conditions on the parameters under which the reference balance of `fuentes` makes sense: installed NOCT
above 20 C, positive sizes, module not upside down, and an absorbed irradiance of `800 * absorption` at NOCT that
(a) does not exceed what the two sides can radiate and (b) covers the radiation at a ground temperature of 20 C. -/
structure Physical (noct emiss absorp tilt width length : ℝ) : Prop where
  noct_gt : 20 < noct
  emiss_pos : 0 < emiss
  width_pos : 0 < width
  length_pos : 0 < length
  tilt_range : 0 ≤ tilt ∧ tilt ≤ 180
  ground : absorp * 800 ≤ emiss * 5.669e-8 * (2 * (noct + 273.15) ^ 4 - 282.21 ^ 4)
  convective : emiss * 5.669e-8 * (2 * (noct + 273.15) ^ 4 - 282.21 ^ 4 - 293.15 ^ 4) ≤ absorp * 800

/-- The default emissivity, absorption and dimensions are physical for installed NOCTs from 45 to 69 C. -/
example (noct : ℝ) (h : 45 ≤ noct) (h' : noct ≤ 69) : Physical noct 0.84 0.83 30 0.31579 1.2 := by
  have h4 : (318.15 : ℝ) ^ 4 ≤ (noct + 273.15) ^ 4 := pow_le_pow_left₀ (by norm_num) (by linarith) 4
  have h5 : (noct + 273.15) ^ 4 ≤ (342.15 : ℝ) ^ 4 := pow_le_pow_left₀ (by linarith) (by linarith) 4
  refine ⟨by linarith, by norm_num, by norm_num, by norm_num, by norm_num, ?_, ?_⟩
  · norm_num at h4 ⊢; linarith
  · norm_num at h5 ⊢; linarith

private theorem sin_tilt {t : ℝ} (h : 0 ≤ t ∧ t ≤ 180) : 0 ≤ Real.sin (t * (π / 180)) := by
  have := Real.pi_pos
  apply Real.sin_nonneg_of_nonneg_of_le_pi
  · have := h.1; positivity
  · have : t * (π / 180) ≤ 180 * (π / 180) := mul_le_mul_of_nonneg_right h.2 (by positivity)
    linarith

private theorem setup_good {noct e A tilt w l : ℝ} (h : Physical noct e A tilt w l) :
    Good (fuentesSetup (fin noct) (fin e) (fin A) (fin tilt) (fin w) (fin l)) := by
  obtain ⟨hn, he, hw, hl, ht, hgr, hcv⟩ := h
  set T := noct + 273.15 with hT
  have hT0 : 293.15 < T := by rw [hT]; linarith
  have hTp : 0 < T := by linarith
  have hwl : w + l ≠ 0 := by positivity
  have hx : 0 < 2 * (w * l) / (w + l) := by positivity
  have ex : hydraulicDiameter (fin w) (fin l) = fin (2 * (w * l) / (w + l)) := by
    simp only [hydraulicDiameter, ofNat_eq, fin_mul, fin_add, fin_div hwl]
  have eT : (fin noct : Fl) + 273.15 = fin T := by simp [hT]
  obtain ⟨hc, ehc, hc0⟩ := hconv_pos (tave := (T + 293.15) / 2) (v := 1) (dT := T - 293.15) (tilt := tilt)
    (by positivity) one_pos (by linarith) hx (sin_tilt ht) False
  have eta : ((fin T : Fl) + 293.15) / 2 = fin ((T + 293.15) / 2) := by
    simp only [ofScientific_eq, ofNat_eq, fin_add, fin_div (by norm_num : (2 : ℝ) ≠ 0)]
  have hΔ : 0 < T - 293.15 := by linarith
  set b : ℝ := 5.669e-8 with hb
  have hb0 : 0 < b := by rw [hb]; norm_num
  set hgd := e * b * (T ^ 2 + 293.15 ^ 2) * (T + 293.15) with hhg
  have hg0 : 0 < hgd := by positivity
  set num := A * 800 - e * b * (T ^ 4 - 282.21 ^ 4) - hc * (T - 293.15) with hnum
  have hden : (hgd + hc) * (T - 293.15) ≠ 0 := by positivity
  set br := num / ((hgd + hc) * (T - 293.15)) with hbr
  have hT4 : 0 < T ^ 4 - 293.15 ^ 4 := by
    have : (293.15 : ℝ) ^ 4 < T ^ 4 := pow_lt_pow_left₀ hT0 (by norm_num) (by norm_num)
    linarith
  -- the radicand is non-negative
  have hrad : 0 ≤ T ^ 4 - br * (T ^ 4 - 293.15 ^ 4) := by
    have hid : hgd * (T - 293.15) = e * b * (T ^ 4 - 293.15 ^ 4) := by rw [hhg]; ring
    rcases le_or_gt num 0 with hneg | hpos
    · have : br ≤ 0 := div_nonpos_of_nonpos_of_nonneg hneg (by positivity)
      nlinarith [pow_pos hTp 4]
    · have h1 : br ≤ num / (hgd * (T - 293.15)) := by
        apply div_le_div_of_nonneg_left hpos.le (by positivity)
        nlinarith
      have h2 : br * (T ^ 4 - 293.15 ^ 4) ≤ num / (e * b) := by
        calc br * (T ^ 4 - 293.15 ^ 4) ≤ num / (hgd * (T - 293.15)) * (T ^ 4 - 293.15 ^ 4) :=
              mul_le_mul_of_nonneg_right h1 hT4.le
          _ = num / (e * b) := by rw [hid]; field_simp
      have h3 : num / (e * b) ≤ T ^ 4 := by
        rw [div_le_iff₀ (by positivity)]
        have : 0 < hc * (T - 293.15) := by positivity
        rw [hnum]
        nlinarith
      linarith
  set tg0 := (T ^ 4 - br * (T ^ 4 - 293.15 ^ 4)) ^ (0.25 : ℝ) with htg0
  set tg := min (max tg0 293.15) T with htg
  have tg1 : 293.15 ≤ tg := le_min (le_max_right _ _) hT0.le
  have tg2 : tg ≤ T := min_le_right _ _
  have hcd : hc * (T - 293.15) ≠ 0 := by positivity
  have tg4 : (293.15 : ℝ) ^ 4 ≤ tg ^ 4 := pow_le_pow_left₀ (by norm_num) tg1 4
  have ebr : ((fin A : Fl) * 800 - fin e * 5.669e-8 * (fin T ^ 4 - (282.21 : Fl) ^ 4) - fin hc * (fin T - 293.15)) /
      ((fin e * 5.669e-8 * (fin T ^ 2 + (293.15 : Fl) ^ 2) * (fin T + 293.15) + fin hc) * (fin T - 293.15)) =
      fin br := by
    simp only [ofScientific_eq, ofNat_eq, fin_mul, fin_pow, fin_sub, fin_add]
    rw [fin_div hden]
  have etg : clip (Fl.rpow (fin T ^ 4 - fin br * (fin T ^ 4 - (293.15 : Fl) ^ 4)) 0.25) 293.15 (fin T) = fin tg := by
    simp only [ofScientific_eq, fin_mul, fin_pow, fin_sub]
    rw [rpow_fin_nonneg hrad (by norm_num), clip_fin]
  have ehc' : fuentesHconv (fin ((T + 293.15) / 2)) 1 (fin T - 293.15) (fin (2 * (w * l) / (w + l))) (fin tilt) False
      = fin hc := by
    rw [← ehc]; simp
  have es : fuentesSetup (fin noct) (fin e) (fin A) (fin tilt) (fin w) (fin l) =
      { emiss := fin e, boltz := fin b, xlen := fin (2 * (w * l) / (w + l)), tilt := fin tilt,
        tgrat := fin ((tg - 293.15) / (T - 293.15)),
        convrat := fin ((A * 800 - e * b * (2 * T ^ 4 - 282.21 ^ 4 - tg ^ 4)) / (hc * (T - 293.15))),
        cap := fin (if 321.15 < T then 11000 * (1 + (T - 321.15) / 12) else 11000) } := by
    unfold fuentesSetup
    simp only [ex, eT, eta, ehc', ebr, etg]
    simp only [ofScientific_eq, ofNat_eq, one_eq, fin_mul, fin_pow, fin_sub, fin_add, fin_lt, fin_div hΔ.ne',
      fin_div hcd, fin_div (by norm_num : (12 : ℝ) ≠ 0)]
    congr 1
    split_ifs <;> rfl
  rw [es]
  refine ⟨⟨e, b, rfl, rfl, he, hb0⟩, ⟨_, rfl, hx⟩, ⟨tilt, rfl, sin_tilt ht⟩, ⟨_, rfl, ?_, ?_⟩, ⟨_, rfl, ?_⟩,
    ⟨_, rfl, ?_⟩⟩
  · exact div_nonneg (by linarith) hΔ.le
  · rw [div_le_one hΔ]; linarith
  · apply div_nonneg _ (by positivity)
    have : e * b * (2 * T ^ 4 - 282.21 ^ 4 - tg ^ 4) ≤ e * b * (2 * T ^ 4 - 282.21 ^ 4 - 293.15 ^ 4) := by
      apply mul_le_mul_of_nonneg_left _ (by positivity)
      linarith
    linarith
  · split_ifs with hh
    · have : 0 < T - 321.15 := by linarith
      positivity
    · norm_num

private theorem mean_ge {p q r a b c lo : ℝ} (hp : 0 ≤ p) (hq : 0 < q) (hr : 0 ≤ r) (ha : lo ≤ a) (hb : lo ≤ b)
    (hc : lo ≤ c) : lo ≤ (p * a + q * b + r * c) / (p + q + r) := by
  rw [le_div_iff₀ (by linarith)]
  nlinarith
private theorem mean_le {p q r a b c hi : ℝ} (hp : 0 ≤ p) (hq : 0 < q) (hr : 0 ≤ r) (ha : a ≤ hi) (hb : b ≤ hi)
    (hc : c ≤ hi) : (p * a + q * b + r * c) / (p + q + r) ≤ hi := by
  rw [div_le_iff₀ (by linarith)]
  nlinarith
private theorem lerp_ge {a m g lo : ℝ} (h0 : 0 ≤ g) (h1 : g ≤ 1) (ha : lo ≤ a) (hm : lo ≤ m) :
    lo ≤ a + g * (m - a) := by nlinarith
private theorem lerp_le {a m g hi : ℝ} (h0 : 0 ≤ g) (h1 : g ≤ 1) (ha : a ≤ hi) (hm : m ≤ hi) :
    a + g * (m - a) ≤ hi := by nlinarith
private theorem exp_facts (X : ℝ) (hX : 0 < X) (E : ℝ) (hE : E = if -10 < -X then Real.exp (-X) else 0) :
    0 ≤ E ∧ E ≤ 1 ∧ 1 - E ≤ X ∧ E * X ≤ 1 - E := by
  subst hE
  split_ifs with h
  · refine ⟨by positivity, Real.exp_le_one_iff.mpr (by linarith), ?_, ?_⟩
    · have := Real.add_one_le_exp (-X); linarith
    · have := Real.add_one_le_exp X
      have h5 : Real.exp (-X) * Real.exp X = 1 := by rw [← Real.exp_add]; simp
      nlinarith [Real.exp_pos (-X)]
  · exact ⟨le_rfl, zero_le_one, by linarith, by simp⟩
private theorem sun_term {E X sun sun0 : ℝ} (hX : 0 < X) (E2 : 1 - E ≤ X) (E3 : E * X ≤ 1 - E) (hs : 0 ≤ sun)
    (hs0 : 0 ≤ sun0) : 0 ≤ (1 - E) * (sun0 + (sun - sun0) / (-X)) + sun - sun0 := by
  have : (1 - E) * (sun0 + (sun - sun0) / (-X)) + sun - sun0 =
      sun * (1 - (1 - E) / X) + sun0 * ((1 - E) / X - E) := by
    field_simp; ring
  rw [this]
  have a1 : (1 - E) / X ≤ 1 := by rw [div_le_one hX]; exact E2
  have a2 : E ≤ (1 - E) / X := by rw [le_div_iff₀ hX]; exact E3
  have : 0 ≤ 1 - (1 - E) / X := by linarith
  have : 0 ≤ (1 - E) / X - E := by linarith
  positivity
private theorem mix_ge {m E Q S lo : ℝ} (h0 : 0 ≤ E) (h1 : E ≤ 1) (hm : lo ≤ m) (hQ : lo ≤ Q) (hS : 0 ≤ S) :
    lo ≤ m * E + (1 - E) * Q + S := by nlinarith
private theorem mix_le {m E Q hi : ℝ} (h0 : 0 ≤ E) (h1 : E ≤ 1) (hm : m ≤ hi) (hQ : Q ≤ hi) :
    m * E + (1 - E) * Q ≤ hi := by nlinarith

/-- The bracket of one heat-balance update: `lo` bounds the inputs from below, `hi` from above. -/
private theorem inner_bounds {s : FuentesSetup} (hs : Good s) {ta sun v ts dt m0 sun0 m lo : ℝ}
    (hlo : 0 < lo) (h1 : lo ≤ ta) (h2 : lo ≤ ts) (h3 : lo ≤ m0) (h4 : lo ≤ m) (hv : 0 < v) (hdt : 0 < dt)
    (hsun : 0 ≤ sun) (hsun0 : 0 ≤ sun0) :
    ∃ r, fuentesInner s (fin ta) (fin sun) (fin v) (fin ts) (fin dt) (fin m0) (fin sun0) (fin m) = fin r ∧ lo ≤ r ∧
      (sun = 0 → sun0 = 0 → ∀ hi, ta ≤ hi → ts ≤ hi → m0 ≤ hi → m ≤ hi → r ≤ hi) := by
  obtain ⟨⟨e, b, ee, eb, he, hb⟩, ⟨x, ex, hx⟩, ⟨t, et, ht⟩, ⟨g, eg, hg0, hg1⟩, ⟨c, ec, hc⟩, ⟨cap, ecap, hcap⟩⟩ := hs
  have hta : 0 < ta := by linarith
  have hts : 0 < ts := by linarith
  have hm : 0 < m := by linarith
  obtain ⟨hv', ehv, hvp⟩ := hconv_pos (tave := (m + ta) / 2) (v := v) (dT := |m - ta|) (x := x) (tilt := t)
    (by positivity) hv (abs_nonneg _) hx ht True
  set hcv := c * hv' with hhc
  set hsk := e * b * (m ^ 2 + ts ^ 2) * (m + ts) with hhs
  set tg := ta + g * (m - ta) with htg
  have tglo : lo ≤ tg := lerp_ge hg0 hg1 h1 h4
  set hgd := e * b * (m ^ 2 + tg ^ 2) * (m + tg) with hhg
  have q1 : 0 ≤ hcv := by positivity
  have q2 : 0 < hsk := by positivity
  have q3 : 0 ≤ hgd := by
    have : 0 < tg := by linarith
    positivity
  set H := hcv + hsk + hgd with hH
  have hHp : 0 < H := by linarith
  set X := H / cap * dt * 3600 with hX
  have hXp : 0 < X := by positivity
  have eX : -H / cap * dt * 3600 = -X := by rw [hX]; ring
  set E := if -10 < -X then Real.exp (-X) else 0 with hE
  obtain ⟨E0, E1, E2, E3⟩ := exp_facts X hXp E hE
  have eval : fuentesInner s (fin ta) (fin sun) (fin v) (fin ts) (fin dt) (fin m0) (fin sun0) (fin m) =
      fin (m0 * E + ((1 - E) * (hcv * ta + hsk * ts + hgd * tg + sun0 + (sun - sun0) / (-X)) + sun - sun0) / H) := by
    unfold fuentesInner
    have e2 : (fin m + fin ta) / (2 : Fl) = fin ((m + ta) / 2) := by
      simp only [ofNat_eq, fin_add, fin_div (by norm_num : (2 : ℝ) ≠ 0)]
    simp only [ee, eb, ex, et, eg, ec, ecap, e2, fin_sub, abs_fin, ehv]
    simp only [fin_sub, fin_mul, fin_pow, fin_add, neg_fin, ofNat_eq,
      fin_div hcap.ne', fin_lt, zero_eq, one_eq, exp_fin]
    rw [show c * hv' + e * b * (m ^ 2 + ts ^ 2) * (m + ts) +
      e * b * (m ^ 2 + (ta + g * (m - ta)) ^ 2) * (m + (ta + g * (m - ta))) = H from rfl, eX]
    rw [fin_div (neg_ne_zero.mpr hXp.ne')]
    have eE : (if (-10 : ℝ) < -X then (fin (Real.exp (-X)) : Fl) else fin 0) = fin E := by
      rw [hE]; split_ifs <;> rfl
    simp only [eE, fin_sub, fin_add, fin_mul, fin_div hHp.ne']
    rfl
  set S := (1 - E) * (sun0 + (sun - sun0) / (-X)) + sun - sun0 with hS
  have hS0 : 0 ≤ S := sun_term hXp E2 E3 hsun hsun0
  have split : m0 * E + ((1 - E) * (hcv * ta + hsk * ts + hgd * tg + sun0 + (sun - sun0) / (-X)) + sun - sun0) / H =
      m0 * E + (1 - E) * ((hcv * ta + hsk * ts + hgd * tg) / H) + S / H := by
    rw [hS]; field_simp; ring
  refine ⟨_, eval, ?_, fun hz hz0 hi i1 i2 i3 i4 => ?_⟩
  · rw [split]
    exact mix_ge E0 E1 h3 (mean_ge q1 q2 q3 h1 h2 tglo) (by positivity)
  · rw [split]
    have hS0' : S = 0 := by rw [hS, hz, hz0]; simp
    have tghi : tg ≤ hi := lerp_le hg0 hg1 i1 i4
    rw [hS0', zero_div, add_zero]
    exact mix_le E0 E1 i3 (mean_le q1 q2 q3 i1 i2 tghi)

private theorem iter_bounds {s : FuentesSetup} (hs : Good s) {ta sun v ts dt m0 sun0 lo : ℝ}
    (hlo : 0 < lo) (h1 : lo ≤ ta) (h2 : lo ≤ ts) (h3 : lo ≤ m0) (hv : 0 < v) (hdt : 0 < dt)
    (hsun : 0 ≤ sun) (hsun0 : 0 ≤ sun0) (n : ℕ) (m : ℝ) (h4 : lo ≤ m) :
    ∃ r, iter (fuentesInner s (fin ta) (fin sun) (fin v) (fin ts) (fin dt) (fin m0) (fin sun0)) n (fin m) = fin r ∧
      lo ≤ r ∧ (sun = 0 → sun0 = 0 → ∀ hi, ta ≤ hi → ts ≤ hi → m0 ≤ hi → m ≤ hi → r ≤ hi) := by
  induction n generalizing m with
  | zero => exact ⟨m, rfl, h4, fun _ _ hi _ _ _ h => h⟩
  | succ n ih =>
    obtain ⟨r, e, hr, hu⟩ := inner_bounds hs hlo h1 h2 h3 h4 hv hdt hsun hsun0
    obtain ⟨r', e', hr', hu'⟩ := ih r hr
    refine ⟨r', by simp only [iter, e, e'], hr', fun z z0 hi i1 i2 i3 i4 => ?_⟩
    exact hu' z z0 hi i1 i2 i3 (hu z z0 hi i1 i2 i3 i4)

/-- Effective sky temperature in Celsius (Fuentes' equation 24). -/
def skyC (t : ℝ) : ℝ := 0.68 * (0.0552 * (t + 273.15) ^ (1.5 : ℝ)) + 0.32 * (t + 273.15) - 273.15

/-- Below 55 C of air temperature the sky is colder than the air. -/
theorem skyC_le (t : ℝ) (h0 : -273.15 < t) (h : t ≤ 55) : skyC t ≤ t := by
  have hp : 0 < t + 273.15 := by linarith
  have hs : Real.sqrt (t + 273.15) ≤ 18.115 := by
    rw [Real.sqrt_le_left (by norm_num)]; norm_num; linarith
  have : (t + 273.15) ^ (1.5 : ℝ) = (t + 273.15) * Real.sqrt (t + 273.15) := by
    rw [show (1.5 : ℝ) = 1 + 1 / 2 by norm_num, Real.rpow_add hp, Real.rpow_one, ← Real.sqrt_eq_rpow]
  unfold skyC
  rw [this]
  have := mul_le_mul_of_nonneg_left hs hp.le
  linarith

example := skyC_le 20 (by norm_num) (by norm_num)

/-- Weather a user may feed to `fuentes`: times increasing, irradiance and wind non-negative, air above absolute zero. -/
structure Weather (poa air wind hours : ℕ → ℝ) : Prop where
  time : ∀ i, hours i < hours (i + 1)
  poa : ∀ i, 0 ≤ poa i
  wind : ∀ i, 0 ≤ wind i
  air : ∀ i, -273.15 < air i

private theorem sky_fin {t : ℝ} (h : -273.15 < t) :
    fuentesSky (fin t + 273.15) = fin (skyC t + 273.15) := by
  have hp : 0 < t + 273.15 := by linarith
  simp only [fuentesSky, ofScientific_eq, fin_add, rpow_fin_pos hp, fin_mul, skyC]
  congr 1; ring

private theorem sky_pos {t : ℝ} (h : -273.15 < t) : 0 < skyC t + 273.15 := by
  have hp : 0 < t + 273.15 := by linarith
  unfold skyC
  have : 0 < (t + 273.15) ^ (1.5 : ℝ) := Real.rpow_pos_of_pos hp _
  linarith

/-- **C56**: for physical parameters and weather every module temperature is a number, and each sample's temperature is
at least the lowest of the previous module temperature (20 C before the first sample), the air temperature and the sky
temperature; when neither this nor the previous sample has irradiance it is also at most the highest of the three. -/
theorem fuentes_step (noct e A tilt w l mh wh : ℝ) (hp : Physical noct e A tilt w l) (hA : 0 ≤ A) (hmh : 0 < mh)
    (hwh : 0 < wh) (poa air wind hours : ℕ → ℝ) (hw : Weather poa air wind hours) :
    ∃ T : ℕ → ℝ,
      (∀ i, fuentes (fun j => fin (poa j)) (fun j => fin (air j)) (fun j => fin (wind j)) hours (fin noct) (fin mh)
        (fin wh) (fin e) (fin A) (fin tilt) (fin w) (fin l) i = fin (T i)) ∧
      ∀ i, let prev := if i = 0 then 20 else T (i - 1)
        min prev (min (air i) (skyC (air i))) ≤ T i ∧
        (poa i = 0 → (i = 0 ∨ poa (i - 1) = 0) → T i ≤ max prev (max (air i) (skyC (air i)))) := by
  have hg := setup_good hp
  set s := fuentesSetup (fin noct) (fin e) (fin A) (fin tilt) (fin w) (fin l) with hs
  set dtime : ℕ → ℝ := fun i => if i = 0 then hours 1 - hours 0 else hours i - hours (i - 1) with hdt
  have hdtp : ∀ i, 0 < dtime i := by
    intro i
    rcases Nat.eq_zero_or_pos i with rfl | hi
    · have := hw.time 0; simp [hdt]; linarith
    · have := hw.time (i - 1)
      rw [show i - 1 + 1 = i by omega] at this
      simp only [hdt, if_neg hi.ne']; linarith
  set wm : ℕ → ℝ := fun i => wind i * (mh / wh) ^ (0.2 : ℝ) + 1e-4 with hwm
  have hwmp : ∀ i, 0 < wm i := by
    intro i
    have := hw.wind i
    have : 0 < (mh / wh) ^ (0.2 : ℝ) := Real.rpow_pos_of_pos (by positivity) _
    simp only [hwm]; positivity
  have ewm : ∀ i, fuentesWind (fin (wind i)) (fin mh) (fin wh) = fin (wm i) := by
    intro i
    have : 0 < mh / wh := by positivity
    simp only [fuentesWind, ofScientific_eq, fin_div hwh.ne', rpow_fin_pos this, fin_mul, fin_add, hwm]
  have sun0 : ∀ i, 0 ≤ poa i * A := fun i => mul_nonneg (hw.poa i) hA
  -- the stored kelvin temperatures
  have stepK : ∀ (i : ℕ) (m0 su : ℝ), 0 < m0 → 0 ≤ su →
      ∃ r, fuentesStep s (fin (air i) + 273.15) (fin (poa i) * fin A) (fuentesWind (fin (wind i)) (fin mh) (fin wh))
          (fuentesSky (fin (air i) + 273.15)) (fin (dtime i)) (fin m0) (fin su) = fin r ∧ 0 < r ∧
        min m0 (min (air i + 273.15) (skyC (air i) + 273.15)) ≤ r ∧
        (poa i = 0 → su = 0 → r ≤ max m0 (max (air i + 273.15) (skyC (air i) + 273.15))) := by
    intro i m0 su hm0 hsu
    have ha : 0 < air i + 273.15 := by have := hw.air i; linarith
    have hsk := sky_pos (hw.air i)
    have hlo : 0 < min m0 (min (air i + 273.15) (skyC (air i) + 273.15)) := lt_min hm0 (lt_min ha hsk)
    obtain ⟨r, er, hr, hu⟩ := iter_bounds hg (ta := air i + 273.15) (sun := poa i * A) (v := wm i)
      (ts := skyC (air i) + 273.15) (dt := dtime i) (m0 := m0) (sun0 := su) hlo
      ((min_le_right _ _).trans (min_le_left _ _)) ((min_le_right _ _).trans (min_le_right _ _)) (min_le_left _ _)
      (hwmp i) (hdtp i) (sun0 i) hsu 10 m0 (min_le_left _ _)
    refine ⟨r, ?_, hlo.trans_le hr, hr, fun hz hsz => ?_⟩
    · unfold fuentesStep
      rw [sky_fin (hw.air i), ewm]
      rw [show (fin (air i) : Fl) + 273.15 = fin (air i + 273.15) by simp, fin_mul]
      exact er
    · exact hu (by rw [hz, zero_mul]) hsz _ ((le_max_left _ _).trans (le_max_right _ _))
        ((le_max_right _ _).trans (le_max_right _ _)) (le_max_left _ _) (le_max_left _ _)
  set F := fuentesTmod s (fun j => fin (air j) + 273.15) (fun j => fin (poa j) * fin A)
    (fun j => fuentesWind (fin (wind j)) (fin mh) (fin wh)) (fun i => fin (dtime i)) with hF
  have all : ∀ i, ∃ r, F i = fin r ∧ 0 < r := by
    intro i
    induction i with
    | zero =>
      obtain ⟨r, er, hr, _⟩ := stepK 0 293.15 0 (by norm_num) le_rfl
      exact ⟨r, by rw [hF]; exact er, hr⟩
    | succ i ih =>
      obtain ⟨m, em, hm⟩ := ih
      obtain ⟨r, er, hr, _⟩ := stepK (i + 1) m (poa i * A) hm (sun0 i)
      refine ⟨r, ?_, hr⟩
      rw [← er, ← em, hF]
      rfl
  choose K hK hKp using all
  refine ⟨fun i => K i - 273.15, fun i => ?_, fun i => ?_⟩
  · have : (fun i : ℕ => if i = 0 then (fin (hours 1 - hours 0) : Fl) else fin (hours i - hours (i - 1))) =
        fun i => fin (dtime i) := by
      funext i; simp only [hdt]; split_ifs <;> rfl
    show fuentesTmod s _ _ _ _ i - 273.15 = _
    rw [this]
    rw [show fuentesTmod s (fun j => fin (air j) + 273.15) (fun j => fin (poa j) * fin A)
      (fun j => fuentesWind (fin (wind j)) (fin mh) (fin wh)) (fun i => fin (dtime i)) i = F i from rfl, hK i]
    simp
  · simp only
    have key : ∃ m0 su : ℝ, m0 = (if i = 0 then 20 else K (i - 1) - 273.15) + 273.15 ∧
        (su = 0 ∨ su = poa (i - 1) * A ∧ i ≠ 0) ∧ 
        min m0 (min (air i + 273.15) (skyC (air i) + 273.15)) ≤ K i ∧
        (poa i = 0 → su = 0 → K i ≤ max m0 (max (air i + 273.15) (skyC (air i) + 273.15))) := by
      cases i with
      | zero =>
        obtain ⟨r, er, _, h1, h2⟩ := stepK 0 293.15 0 (by norm_num) le_rfl
        have : K 0 = r := by
          have := hK 0; rw [hF] at this
          have : fin (K 0) = fin r := by rw [← this]; exact er
          exact fin_inj.mp this
        exact ⟨293.15, 0, by norm_num, Or.inl rfl, by rw [this]; exact h1, fun z z' => by rw [this]; exact h2 z z'⟩
      | succ i =>
        obtain ⟨r, er, _, h1, h2⟩ := stepK (i + 1) (K i) (poa i * A) (hKp i) (sun0 i)
        have : K (i + 1) = r := by
          have h5 := hK (i + 1)
          have h6 : F (i + 1) = fin r := by rw [← er, ← hK i, hF]; rfl
          rw [h5] at h6
          exact fin_inj.mp h6
        exact ⟨K i, poa i * A, by simp, Or.inr ⟨by simp, by omega⟩, by rw [this]; exact h1,
          fun z z' => by rw [this]; exact h2 z z'⟩
    obtain ⟨m0, su, e1, e2, h1, h2⟩ := key
    set prev := if i = 0 then (20 : ℝ) else K (i - 1) - 273.15 with hprev
    subst e1
    constructor
    · have : min prev (min (air i) (skyC (air i))) + 273.15 =
          min (prev + 273.15) (min (air i + 273.15) (skyC (air i) + 273.15)) := by
        rw [← min_add_add_right, ← min_add_add_right]
      linarith
    · intro hz hz'
      have hsu : su = 0 := by
        rcases e2 with h | ⟨h, hi⟩
        · exact h
        · rcases hz' with h' | h'
          · exact absurd h' hi
          · rw [h, h', zero_mul]
      have : max prev (max (air i) (skyC (air i))) + 273.15 =
          max (prev + 273.15) (max (air i + 273.15) (skyC (air i) + 273.15)) := by
        rw [← max_add_add_right, ← max_add_add_right]
      have := h2 hz hsu
      linarith

/-- A module of nominal operating cell temperature 45 °C through ten dark hours and then sunshine. -/
example := fuentes_step 45 0.84 0.83 30 0.31579 1.2 5 5
  ⟨by norm_num, by norm_num, by norm_num, by norm_num, by norm_num, by norm_num, by norm_num⟩ (by norm_num) (by norm_num)
  (by norm_num) (fun i => if i < 10 then 0 else 700) (fun _ => 15) (fun _ => 2) (fun i => i)
  ⟨fun i => by push_cast; linarith, fun i => by split_ifs <;> norm_num, fun _ => by norm_num, fun _ => by norm_num⟩

/-- **C56** over whole histories: the module never gets colder than the coldest of 20 C, the air and the sky so far; in
the dark (and below 55 C) it never gets hotter than the hottest of 20 C and the air so far. -/
theorem fuentes_bounds (noct e A tilt w l mh wh : ℝ) (hp : Physical noct e A tilt w l) (hA : 0 ≤ A) (hmh : 0 < mh)
    (hwh : 0 < wh) (poa air wind hours : ℕ → ℝ) (hw : Weather poa air wind hours) (n : ℕ) (lo hi : ℝ)
    (hlo : lo ≤ 20 ∧ ∀ j ≤ n, lo ≤ air j ∧ lo ≤ skyC (air j)) :
    ∃ r, fuentes (fun j => fin (poa j)) (fun j => fin (air j)) (fun j => fin (wind j)) hours (fin noct) (fin mh)
        (fin wh) (fin e) (fin A) (fin tilt) (fin w) (fin l) n = fin r ∧ lo ≤ r ∧
      ((∀ j ≤ n, poa j = 0) → 20 ≤ hi → (∀ j ≤ n, air j ≤ hi ∧ air j ≤ 55) → r ≤ hi) := by
  obtain ⟨T, hT, hb⟩ := fuentes_step noct e A tilt w l mh wh hp hA hmh hwh poa air wind hours hw
  refine ⟨T n, hT n, ?_, fun hz h20 hi' => ?_⟩
  · have : ∀ i ≤ n, lo ≤ T i := by
      intro i
      induction i with
      | zero =>
        intro hi
        have := (hb 0).1
        exact le_trans (le_min (by simpa using hlo.1) (le_min (hlo.2 0 hi).1 (hlo.2 0 hi).2)) this
      | succ i ih =>
        intro hi
        have := (hb (i + 1)).1
        exact le_trans (le_min (by simpa using ih (by omega)) (le_min (hlo.2 _ hi).1 (hlo.2 _ hi).2)) this
    exact this n le_rfl
  · have hsk : ∀ i ≤ n, skyC (air i) ≤ hi := fun i h =>
      (skyC_le _ (hw.air i) (hi' i h).2).trans (hi' i h).1
    have : ∀ i ≤ n, T i ≤ hi := by
      intro i
      induction i with
      | zero =>
        intro h
        exact ((hb 0).2 (hz 0 h) (Or.inl rfl)).trans (max_le (by simpa using h20) (max_le (hi' 0 h).1 (hsk 0 h)))
      | succ i ih =>
        intro h
        exact ((hb (i + 1)).2 (hz _ h) (Or.inr (hz _ (by omega)))).trans
          (max_le (by simpa using ih (by omega)) (max_le (hi' _ h).1 (hsk _ h)))
    exact this n le_rfl

example : Weather (fun i => if i < 10 then 0 else 700) (fun _ => 15) (fun _ => 2) (fun i => i) :=
  ⟨fun i => by push_cast; linarith, fun i => by split_ifs <;> norm_num, fun _ => by norm_num,
    fun _ => by norm_num⟩

end Pvlib.Props.Fuentes
end
