import Verif.Model.Reverse
import Verif.Props.Transposition
import Verif.Props.Decomposition

/-! # C137 Reverse transposition `ghi_from_poa_driesse_2024` -/

noncomputable section
open scoped Classical
open Real
namespace Pvlib.Props.Reverse
open Fl Pvlib.Irradiance Pvlib.Tools Pvlib.Spec Pvlib.Props.Geometry Pvlib.Props.Transposition
open Pvlib.Props.Decomposition

/-! ## The forward model -/

/-- The Erbs-Driesse decomposition inside the forward model: real, non-negative, diffuse at most global. -/
private theorem erbs_parts (g z e : ℝ) (hg : 0 ≤ g) (hz : 0 ≤ z) (he : 0 < e) :
    ∃ r n h, erbsDriesse (fin g) (fin z) none (some (fin e)) = .ok r ∧ r.dni = fin n ∧ r.dhi = fin h ∧
      0 ≤ n ∧ 0 ≤ h ∧ h ≤ g ∧ g = h + n * cosDeg z := by
  obtain ⟨r, hr, n, h, hn, hh, hn0, hcl⟩ := erbsDriesse_closes g z 0.065 87 none (some e) (by simp)
    (by intro e' h; cases h; exact he) (by norm_num) (default_threshold_ok z hz)
  rw [max_eq_right hg] at hcl
  refine ⟨r, n, h, hr, hn, hh, hn0, ?_⟩
  obtain ⟨k, hk, h0, h1⟩ : ∃ k : ℝ, clearnessIndex (fin g) (fin z) (fin e) (fin 0.065) 1 = fin k ∧ 0 ≤ k ∧ k ≤ 1 :=
    ⟨_, clearnessIndex_value g z e 0.065 1 he.ne' (by norm_num), le_min (le_max_right _ _) (by norm_num),
      min_le_right _ _⟩
  obtain ⟨d, hd, d0, d1⟩ := erbsDriesseDf_range k h0 h1
  have hr' : erbsDriesse (fin g) (fin z) none (some (fin e)) (fin 0.065) (fin 87) =
      .ok (finishDf (fin g) (fin z) (fin 87) (fin k) (fin d)) := by
    simp only [erbsDriesse, erbsDriesseExtra, zero_eq, maximum_fin, max_eq_right hg, hk, hd]
  have hrr : r = finishDf (fin g) (fin z) (fin 87) (fin k) (fin d) := by
    have := hr.symm.trans hr'
    simpa using this
  have hh' : h = g ∨ h = d * g := by
    rw [hrr] at hh
    simp only [finishDf, npwhere] at hh
    split_ifs at hh
    · left; simpa using hh.symm
    · right; simpa using hh.symm
  rcases hh' with rfl | rfl
  · exact ⟨hg, le_rfl, hcl⟩
  · exact ⟨by positivity, by nlinarith, hcl⟩

section Forward
variable (tilt az zen saz e alb : ℝ) (airmass : Option Fl)

/-- The forward model as the chain of public calls: `erbs_driesse` on `ghi`, then `get_total_irradiance` with the
'perez-driesse' model, neither of which raises. -/
theorem poaFromGhi_is_total (tilt az zen saz g e alb : Fl) (airmass : Option Fl) :
    ∃ r p, erbsDriesse g zen none (some e) = .ok r ∧
      getTotalIrradiance (fun _ => none) pdF tilt az zen saz r.dni g r.dhi (some e) airmass alb none "perez-driesse"
        "allsitescomposite1990" false = .ok p ∧
      poaFromGhi tilt az zen saz g e airmass alb = p.poa_global := by
  refine ⟨erbsDriesseExtra g zen e 0.065 87, ?_⟩
  have hl : pyLower "perez-driesse" = "perez-driesse" := by decide +kernel
  have hp : ∃ p, getTotalIrradiance (fun _ => none) pdF tilt az zen saz (erbsDriesseExtra g zen e 0.065 87).dni g
      (erbsDriesseExtra g zen e 0.065 87).dhi (some e) airmass alb none "perez-driesse"
        "allsitescomposite1990" false = .ok p := by
    have hs : ∃ s, getSkyDiffuse (fun _ => none) pdF tilt az zen saz (erbsDriesseExtra g zen e 0.065 87).dni g
        (erbsDriesseExtra g zen e 0.065 87).dhi (some e) airmass "perez-driesse" "allsitescomposite1990" false = .ok s := by
      rw [skyDiffuse_ok_iff]
      simp [knownModels, hl]
    obtain ⟨s, hs⟩ := hs
    unfold getTotalIrradiance
    rw [hs]
    exact ⟨_, rfl⟩
  obtain ⟨p, hp⟩ := hp
  refine ⟨p, rfl, hp, ?_⟩
  unfold poaFromGhi
  simp only [erbsDriesse, hp]

/-- For a real site with the sun up, a real GHI `≥ 0` gives a real modelled POA, and with a reflective ground
it is non-negative. -/
theorem poaFromGhi_real (g : ℝ) (hg : 0 ≤ g) (he : 0 < e) (hz : 0 ≤ zen) (hz' : zen ≤ 90)
    (ha : airmass = none ∨ ∃ am, 0 < am ∧ airmass = some (fin am)) :
    ∃ r : ℝ, poaFromGhi (fin tilt) (fin az) (fin zen) (fin saz) (fin g) (fin e) airmass (fin alb) = fin r ∧
      (0 ≤ alb → 0 ≤ r) ∧ (g = 0 → r = 0) := by
  obtain ⟨d, p, hd, hp, heq⟩ := poaFromGhi_is_total (fin tilt) (fin az) (fin zen) (fin saz) (fin g) (fin e) (fin alb)
    airmass
  obtain ⟨d', n, h, hd', hn, hh, hn0, hh0, hhg, hcl⟩ := erbs_parts g zen e hg hz he
  have : d = d' := by have := hd.symm.trans hd'; simpa using this
  subst this
  rw [hn, hh] at hp
  obtain ⟨s1, s2, -, ⟨sky, hsky, hsk, -⟩, hgr⟩ := total_sums _ _ _ _ _ _ _ _ _ _ _ _ _ _ _ _ _ hp
  have hdir := total_direct _ _ tilt az zen saz n _ _ _ _ _ _ _ _ _ _ hp
  have hl : pyLower "perez-driesse" = "perez-driesse" := by decide +kernel
  simp only [getSkyDiffuse, hl] at hsky
  simp at hsky
  obtain ⟨q, -, hq⟩ := perezDriesse_components_shipped tilt az h n e zen saz airmass hh0 hn0 he hz hz' ha
  have hskyv : p.poa_sky_diffuse = fin (max q 0) := by rw [hsk, ← hsky]; exact hq
  have hgrv : p.poa_ground_diffuse = fin (g * alb * (1 - cosDeg tilt) * 0.5) := by
    simp only [groundDiffuse, Except.ok.injEq] at hgr
    rw [← hgr]; simp
  refine ⟨max (n * dot (dirVec tilt az) (dirVec zen saz)) 0 + (max q 0 + g * alb * (1 - cosDeg tilt) * 0.5), ?_, ?_, ?_⟩
  · rw [heq, s1, s2, hdir, hskyv, hgrv]; simp
  · intro hal
    have : 0 ≤ 1 - cosDeg tilt := by linarith [Real.cos_le_one (tilt * (π / 180))]
    have h1 : 0 ≤ g * alb * (1 - cosDeg tilt) * 0.5 := by positivity
    have := le_max_right (n * dot (dirVec tilt az) (dirVec zen saz)) 0
    have := le_max_right q 0
    linarith
  · intro hg0
    subst hg0
    have hh1 : h = 0 := le_antisymm hhg hh0
    subst hh1
    have hdz := perezDriesse_no_diffuse tilt az n e zen saz airmass hn0 he hz hz' ha
    have hq0 : max q 0 = 0 := by
      have := hq.symm.trans hdz
      simpa using this
    have hnz : n = 0 := by
      -- the decomposition of no light has no beam: either the cosine is not zero, or the row is "bad"
      by_cases hc : cosDeg zen = 0
      · have h87 : (87 : ℝ) < zen := by
          by_contra hcon
          exact default_threshold_ok zen hz (not_lt.mp hcon) hc
        have : d.dni = fin 0 := by
          simp only [erbsDriesse, Except.ok.injEq] at hd
          rw [← hd]
          simp only [erbsDriesseExtra, finishDf]
          rw [npwhere_pos]
          · rfl
          · left; exact h87
        rw [hn] at this; simpa using this
      · have : n * cosDeg zen = 0 := by linarith
        rcases mul_eq_zero.mp this with h | h
        · exact h
        · exact absurd h hc
    rw [hnz, hq0]; simp

example := poaFromGhi_real 30 180 40 170 1367 0.2 (some (fin 1.3)) 700 (by norm_num) (by norm_num) (by norm_num) (by norm_num)
  (Or.inr ⟨1.3, by norm_num, rfl⟩)

/-- The modelled POA as a real function of a real GHI. -/
def forward (g : ℝ) : ℝ :=
  match poaFromGhi (fin tilt) (fin az) (fin zen) (fin saz) (fin g) (fin e) airmass (fin alb) with
  | fin r => r
  | _ => 0

theorem forward_spec (g : ℝ) (hg : 0 ≤ g) (he : 0 < e) (hz : 0 ≤ zen) (hz' : zen ≤ 90)
    (ha : airmass = none ∨ ∃ am, 0 < am ∧ airmass = some (fin am)) :
    poaFromGhi (fin tilt) (fin az) (fin zen) (fin saz) (fin g) (fin e) airmass (fin alb)
      = fin (forward tilt az zen saz e alb airmass g) := by
  obtain ⟨r, hr, -⟩ := poaFromGhi_real tilt az zen saz e alb airmass g hg he hz hz' ha
  unfold forward
  rw [hr]

example := forward_spec 30 180 40 170 1367 0.2 none 700 (by norm_num) (by norm_num) (by norm_num) (by norm_num) (Or.inl rfl)

end Forward

/-! ## Bisection -/

/-- What the bisection loop guarantees on a real function negative at the left end: the estimate is in the bracket, the
count is right, and on convergence the function changes sign within the tolerance of the estimate. -/
private theorem loop_spec (f : Fl → Fl) (F : ℝ → ℝ) (xtol rtol : ℝ) (A B : ℝ) (hrt : 0 ≤ rtol) (hA : 0 ≤ A)
    (hf : ∀ x, A ≤ x → x ≤ B → f (fin x) = fin (F x)) :
    ∀ (fuel : ℕ) (it : ℤ) (xa dm : ℝ), A ≤ xa → 0 < dm → xa + dm ≤ B → F xa < 0 → 0 ≤ F (xa + dm) →
      ∃ (x : ℝ) (conv : Bool) (k : ℕ), bisectLoop f True (fin xtol) (fin rtol) fuel it (fin xa) (fin dm)
          = .ok (fin x, conv, it + k) ∧ xa ≤ x ∧ x ≤ xa + dm ∧ k ≤ fuel ∧ (conv = false → k = fuel) ∧
        (conv = true → ∃ w, w < xtol + rtol * x ∧ (F x = 0 ∨ (F x < 0 ∧ 0 ≤ F (x + w) ∧ 0 < w ∧ x + w ≤ B) ∨
          (0 ≤ F x ∧ F (x - w) < 0 ∧ 0 < w ∧ A ≤ x - w)) ∨ F x = 0) ∧
        (conv = false → dm / 2 ^ fuel ≥ xtol ∨ fuel = 0) := by
  intro fuel
  induction fuel with
  | zero =>
    intro it xa dm h1 h2 h3 h4 h5
    exact ⟨xa, false, 0, by simp [bisectLoop], le_rfl, by linarith, le_rfl, by simp, by simp, by simp⟩
  | succ fuel ih =>
    intro it xa dm h1 h2 h3 h4 h5
    have hm1 : A ≤ xa + dm * 0.5 := by norm_num; linarith
    have hm2 : xa + dm * 0.5 ≤ B := by norm_num; linarith
    have hfm := hf _ hm1 hm2
    have hnn : 0 ≤ xa + dm * 0.5 := by linarith
    have hdm : 0 < dm * 0.5 := by norm_num; linarith
    have hhalf : xa + dm * 0.5 + dm * 0.5 = xa + dm := by norm_num; ring
    have hc1 : (fin (F (xa + dm * 0.5)) : Fl) < 0 ↔ F (xa + dm * 0.5) < 0 := Iff.rfl
    have hc2 : eqv (fin (F (xa + dm * 0.5))) 0 ↔ F (xa + dm * 0.5) = 0 := by rw [zero_eq, eqv_fin]
    have hc3 : Fl.abs (fin (dm * 0.5)) < fin xtol + fin rtol * Fl.abs (fin (xa + dm * 0.5)) ↔
        dm * 0.5 < xtol + rtol * (xa + dm * 0.5) := by
      simp only [abs_fin, fin_mul, fin_add, fin_lt, abs_of_pos hdm, abs_of_nonneg hnn]
    have hunf : bisectLoop f True (fin xtol) (fin rtol) (fuel + 1) it (fin xa) (fin dm) =
        if F (xa + dm * 0.5) = 0 ∨ dm * 0.5 < xtol + rtol * (xa + dm * 0.5) then
          .ok (fin (xa + dm * 0.5), true, it + 1)
        else bisectLoop f True (fin xtol) (fin rtol) fuel (it + 1)
          (if F (xa + dm * 0.5) < 0 then fin (xa + dm * 0.5) else fin xa) (fin (dm * 0.5)) := by
      have e1 : (fin dm * (0.5 : Fl)) = fin (dm * 0.5) := by simp
      simp only [bisectLoop, e1, fin_add, hfm, not_isnan_fin, if_false, hc1, hc2, hc3, eq_iff_iff, iff_true]
    rw [hunf]
    by_cases hstop : F (xa + dm * 0.5) = 0 ∨ dm * 0.5 < xtol + rtol * (xa + dm * 0.5)
    · rw [if_pos hstop]
      refine ⟨xa + dm * 0.5, true, 1, by simp, by linarith, by linarith, by omega, by simp, ?_, by simp⟩
      intro _
      rcases hstop with h0 | hlt
      · by_cases hx : 0 < xtol + rtol * (xa + dm * 0.5)
        · exact ⟨0, Or.inl ⟨hx, Or.inl h0⟩⟩
        · exact ⟨0, Or.inr h0⟩
      · refine ⟨dm * 0.5, Or.inl ⟨hlt, ?_⟩⟩
        rcases lt_or_ge (F (xa + dm * 0.5)) 0 with hneg | hpos
        · right; left; refine ⟨hneg, ?_, hdm, ?_⟩
          · rw [hhalf]; exact h5
          · rw [hhalf]; exact h3
        · right; right
          have e : xa + dm * 0.5 - dm * 0.5 = xa := by ring
          rw [e]
          exact ⟨hpos, h4, hdm, h1⟩
    · rw [if_neg hstop]
      push Not at hstop
      have hfin : ∀ xa' : ℝ, A ≤ xa' → xa ≤ xa' → xa' + dm * 0.5 ≤ xa + dm → F xa' < 0 → 0 ≤ F (xa' + dm * 0.5) →
          ∃ (x : ℝ) (conv : Bool) (k : ℕ),
          bisectLoop f True (fin xtol) (fin rtol) fuel (it + 1) (fin xa') (fin (dm * 0.5)) = .ok (fin x, conv, it + k) ∧
          xa ≤ x ∧ x ≤ xa + dm ∧ k ≤ fuel + 1 ∧ (conv = false → k = fuel + 1) ∧
          (conv = true → ∃ w, w < xtol + rtol * x ∧ (F x = 0 ∨ (F x < 0 ∧ 0 ≤ F (x + w) ∧ 0 < w ∧ x + w ≤ B) ∨
            (0 ≤ F x ∧ F (x - w) < 0 ∧ 0 < w ∧ A ≤ x - w)) ∨ F x = 0) ∧
          (conv = false → dm / 2 ^ (fuel + 1) ≥ xtol ∨ fuel + 1 = 0) := by
        intro xa' ha1 ha2 ha3 ha4 ha5
        obtain ⟨x, conv, k, h, i1, i2, i3, i4, i5, i6⟩ := ih (it + 1) xa' (dm * 0.5) ha1 hdm (by linarith) ha4 ha5
        refine ⟨x, conv, k + 1, by rw [h]; push_cast; simp [add_comm, add_left_comm], by linarith, by linarith, by omega,
          fun hh => by rw [i4 hh], i5, ?_⟩
        intro hh
        left
        have hpow : dm * 0.5 / 2 ^ fuel = dm / 2 ^ (fuel + 1) := by rw [pow_succ]; field_simp; norm_num
        rcases i6 hh with h7 | h7
        · rw [← hpow]; exact h7
        · subst h7
          have := hstop.2
          have hr0 : 0 ≤ rtol * (xa + dm * 0.5) := by positivity
          norm_num at this hr0 ⊢
          linarith
      by_cases hneg : F (xa + dm * 0.5) < 0
      · rw [if_pos hneg]
        exact hfin _ hm1 (by linarith) (by rw [hhalf]) hneg (by rw [hhalf]; exact h5)
      · rw [if_neg hneg]
        exact hfin xa h1 le_rfl (by linarith) h4 (not_lt.mp hneg)

/-! ## C137 -/

/-- The upper end of the search: clearness index 1.25, but at least 10 W/m². -/
def ghiHigh (e zen : ℝ) : ℝ := max 10 (1.25 * (e * cosDeg zen))

private theorem high_eq (e zen : ℝ) : maximum 10 (1.25 * (fin e * cosd (fin zen))) = fin (ghiHigh e zen) := by
  simp [ghiHigh, cosd]

/-- **C137** an `xtol` that is not positive is rejected; otherwise the call returns for every input (including NaN). -/
theorem ghi_from_poa_error_iff (tilt az zen saz poa e : Fl) (am : Option Fl) (alb xtol : Fl) :
    ghiFromPoa tilt az zen saz poa e am alb xtol = .error .valueError ↔ xtol ≤ 0 := by
  unfold ghiFromPoa
  by_cases h : xtol ≤ 0
  · rw [if_pos h]; exact ⟨fun _ => h, fun _ => rfl⟩
  · rw [if_neg h]; exact ⟨fun hc => absurd hc (by simp), fun hc => absurd hc h⟩

/-- **C137** NaN in, NaN out, not converged. -/
theorem ghi_from_poa_nan (tilt az zen saz e : Fl) (am : Option Fl) (alb : Fl) (xtol : ℝ) (h : 0 < xtol) :
    ghiFromPoa tilt az zen saz nan e am alb (fin xtol) = .ok (nan, false, 0) := by
  have : ¬ ((fin xtol : Fl) ≤ 0) := not_le.mpr h
  simp [ghiFromPoa, ghiFromPoa1, not_le.mpr h]

example (t a z s e : Fl) := ghi_from_poa_nan t a z s e none (fin 0.2) 0.01 (by norm_num)

/-- **C137** no light on the plane: GHI 0, converged, no iterations — whatever the site (even a NaN one). -/
theorem ghi_from_poa_dark (tilt az zen saz e : Fl) (am : Option Fl) (alb : Fl) (xtol poa : ℝ) (h : 0 < xtol)
    (hp : poa ≤ 0) : ghiFromPoa tilt az zen saz (fin poa) e am alb (fin xtol) = .ok (fin 0, true, 0) := by
  have : (fin poa : Fl) ≤ 0 := hp
  simp [ghiFromPoa, ghiFromPoa1, not_le.mpr h, hp]

example (t a z s e : Fl) := ghi_from_poa_dark t a z s e none (fin 0.2) 0.01 (-3) (by norm_num) (by norm_num)

section Main
variable (tilt az zen saz poa e alb xtol : ℝ) (airmass : Option Fl)
  (he : 0 < e) (hz : 0 ≤ zen) (hz' : zen ≤ 90) (hp : 0 < poa) (hx : 0 < xtol)
  (ha : airmass = none ∨ ∃ am, 0 < am ∧ airmass = some (fin am))

include he hz hz' hp hx ha

/-- What the call reduces to: bisection of `forward - poa`. -/
private theorem call_eq :
    ghiFromPoa (fin tilt) (fin az) (fin zen) (fin saz) (fin poa) (fin e) airmass (fin alb) (fin xtol) =
      .ok (match bisect (fun g => poaFromGhi (fin tilt) (fin az) (fin zen) (fin saz) g (fin e) airmass (fin alb) - fin poa)
        (fin 0) (fin (ghiHigh e zen)) (fin xtol) bisectRtol 25 with
        | .error _ => (nan, false, -1)
        | .ok r => r) := by
  have h1 : ¬ ((fin xtol : Fl) ≤ 0) := not_le.mpr hx
  have h2 : ¬ ((fin poa : Fl) ≤ 0) := not_le.mpr hp
  unfold ghiFromPoa
  rw [if_neg h1]
  unfold ghiFromPoa1
  rw [if_neg (not_isnan_fin poa), if_neg h2]
  simp only [high_eq, zero_eq]
  rfl

private theorem f_eq (g : ℝ) (hg : 0 ≤ g) :
    (fun g => poaFromGhi (fin tilt) (fin az) (fin zen) (fin saz) g (fin e) airmass (fin alb) - fin poa) (fin g)
      = fin (forward tilt az zen saz e alb airmass g - poa) := by
  simp only [forward_spec tilt az zen saz e alb airmass g hg he hz hz' ha, fin_sub]

/-- **C137** (infeasible) if even clearness index 1.25 (and 10 W/m²) is modelled to give less than the measured POA, the
result is NaN, not converged, with iteration count -1. -/
theorem ghi_from_poa_infeasible (h : forward tilt az zen saz e alb airmass (ghiHigh e zen) < poa) :
    ghiFromPoa (fin tilt) (fin az) (fin zen) (fin saz) (fin poa) (fin e) airmass (fin alb) (fin xtol) =
      .ok (nan, false, -1) := by
  rw [call_eq tilt az zen saz poa e alb xtol airmass he hz hz' hp hx ha]
  have hh : (0 : ℝ) ≤ ghiHigh e zen := le_trans (by norm_num) (le_max_left _ _)
  have f0 := f_eq tilt az zen saz poa e alb xtol airmass he hz hz' hp hx ha 0 le_rfl
  have fb := f_eq tilt az zen saz poa e alb xtol airmass he hz hz' hp hx ha _ hh
  have hz0 : forward tilt az zen saz e alb airmass 0 = 0 := by
    obtain ⟨r, hr, -, h0⟩ := poaFromGhi_real tilt az zen saz e alb airmass 0 le_rfl he hz hz' ha
    have := (forward_spec tilt az zen saz e alb airmass 0 le_rfl he hz hz' ha).symm.trans hr
    rw [fin_inj] at this
    rw [this, h0 rfl]
  rw [hz0, zero_sub] at f0
  have hb : bisect (fun g => poaFromGhi (fin tilt) (fin az) (fin zen) (fin saz) g (fin e) airmass (fin alb) - fin poa)
        (fin 0) (fin (ghiHigh e zen)) (fin xtol) bisectRtol 25 = .error .valueError := by
    unfold bisect
    simp only [f0, fb, not_isnan_fin, or_self, if_false, zero_eq, eqv_fin, fin_lt]
    rw [if_neg (by linarith), if_neg (by linarith), if_pos]
    rw [eq_iff_iff]
    constructor <;> intro _ <;> linarith
  rw [hb]

/-- More than the brightest sky can give. -/
example := ghi_from_poa_infeasible 30 180 40 170 (max 1 (forward 30 180 40 170 1367 0.2 none (ghiHigh 1367 40) + 1)) 1367 0.2 0.01
  none (by norm_num) (by norm_num) (by norm_num) (lt_of_lt_of_le one_pos (le_max_left _ _)) (by norm_num) (Or.inl rfl)
  (lt_of_lt_of_le (lt_add_one _) (le_max_right _ _))

/-- **C137** (feasible) otherwise the result is a GHI between 0 and the bound, found in at most 25 iterations; if it is
reported as converged, the modelled POA crosses the measured one within `xtol` (plus four machine epsilons, relative) of
it: it equals the measurement there, or the measurement lies between the modelled POA at the result and at a point
that close. -/
theorem ghi_from_poa_feasible (h : poa ≤ forward tilt az zen saz e alb airmass (ghiHigh e zen)) :
    ∃ (g : ℝ) (conv : Bool) (k : ℕ),
      ghiFromPoa (fin tilt) (fin az) (fin zen) (fin saz) (fin poa) (fin e) airmass (fin alb) (fin xtol) =
        .ok (fin g, conv, k) ∧ 0 ≤ g ∧ g ≤ ghiHigh e zen ∧ k ≤ 25 ∧ (conv = false → k = 25) ∧
      (conv = true → ∃ g', 0 ≤ g' ∧ g' ≤ ghiHigh e zen ∧ |g' - g| < xtol + 4 * (2 : ℝ) ^ (-52 : ℤ) * g ∧
        min (forward tilt az zen saz e alb airmass g) (forward tilt az zen saz e alb airmass g') ≤ poa ∧
        poa ≤ max (forward tilt az zen saz e alb airmass g) (forward tilt az zen saz e alb airmass g')) ∧
      (ghiHigh e zen < 2 ^ 25 * xtol → conv = true) := by
  rw [call_eq tilt az zen saz poa e alb xtol airmass he hz hz' hp hx ha]
  set P := forward tilt az zen saz e alb airmass with hP
  have hh : (10 : ℝ) ≤ ghiHigh e zen := le_max_left _ _
  have hf := f_eq tilt az zen saz poa e alb xtol airmass he hz hz' hp hx ha
  have f0 := hf 0 le_rfl
  have fb := hf (ghiHigh e zen) (by linarith)
  have hz0 : P 0 = 0 := by
    obtain ⟨r, hr, -, h0⟩ := poaFromGhi_real tilt az zen saz e alb airmass 0 le_rfl he hz hz' ha
    have := (forward_spec tilt az zen saz e alb airmass 0 le_rfl he hz hz' ha).symm.trans hr
    rw [fin_inj] at this
    rw [hP, this, h0 rfl]
  rw [← hP] at hf f0 fb
  rw [hz0, zero_sub] at f0
  have hr0 : (0 : ℝ) ≤ 4 * (2 : ℝ) ^ (-52 : ℤ) := by positivity
  rcases h.eq_or_lt with hEq | hlt
  · -- exactly at the bound
    refine ⟨ghiHigh e zen, true, 0, ?_, by linarith, le_rfl, by omega, by simp, ?_, by simp⟩
    · have hb : bisect (fun g => poaFromGhi (fin tilt) (fin az) (fin zen) (fin saz) g (fin e) airmass (fin alb) - fin poa)
          (fin 0) (fin (ghiHigh e zen)) (fin xtol) bisectRtol 25 = .ok (fin (ghiHigh e zen), true, 0) := by
        unfold bisect
        simp only [f0, fb, not_isnan_fin, or_self, if_false, zero_eq, eqv_fin]
        rw [if_neg (by linarith), if_pos (by linarith)]
      rw [hb]; rfl
    · intro _
      have hpos : 0 < xtol + 4 * (2 : ℝ) ^ (-52 : ℤ) * ghiHigh e zen := by
        have : 0 ≤ 4 * (2 : ℝ) ^ (-52 : ℤ) * ghiHigh e zen := mul_nonneg hr0 (by linarith)
        linarith
      exact ⟨ghiHigh e zen, by linarith, le_rfl, by simpa using hpos, by rw [min_self, ← hEq], by rw [max_self, ← hEq]⟩
  · obtain ⟨x, conv, k, hl, i1, i2, i3, i4, i5, i6⟩ := loop_spec
      (fun g => poaFromGhi (fin tilt) (fin az) (fin zen) (fin saz) g (fin e) airmass (fin alb) - fin poa)
      (fun g => P g - poa) xtol (4 * (2 : ℝ) ^ (-52 : ℤ)) 0 (ghiHigh e zen) hr0 le_rfl
      (fun x hx0 _ => hf x hx0) 25 0 0 (ghiHigh e zen) le_rfl (by linarith) (by simp)
      (by rw [hz0]; linarith) (by rw [zero_add]; linarith)
    have hb : bisect (fun g => poaFromGhi (fin tilt) (fin az) (fin zen) (fin saz) g (fin e) airmass (fin alb) - fin poa)
          (fin 0) (fin (ghiHigh e zen)) (fin xtol) bisectRtol 25 = .ok (fin x, conv, k) := by
      unfold bisect
      simp only [f0, fb, not_isnan_fin, or_self, if_false, zero_eq, eqv_fin, fin_lt]
      rw [if_neg (by linarith), if_neg (by linarith), if_neg]
      · rw [show ((-poa < 0) = True) from by rw [eq_iff_iff]; constructor <;> intro _ <;> [trivial; linarith], fin_sub,
          sub_zero]
        have := hl
        rw [zero_add] at this
        exact this
      · rw [eq_iff_iff]
        intro hc
        have := hc.mp (by linarith)
        linarith
    refine ⟨x, conv, k, by rw [hb], i1, by linarith, i3, i4, ?_, ?_⟩
    · intro hc
      obtain ⟨w, hw⟩ := i5 hc
      have hbase : 0 < xtol + 4 * (2 : ℝ) ^ (-52 : ℤ) * x := by
        have : 0 ≤ 4 * (2 : ℝ) ^ (-52 : ℤ) * x := mul_nonneg hr0 i1
        linarith
      have hzero : P x - poa = 0 → ∃ g', 0 ≤ g' ∧ g' ≤ ghiHigh e zen ∧ |g' - x| < xtol + 4 * (2 : ℝ) ^ (-52 : ℤ) * x ∧
          min (P x) (P g') ≤ poa ∧ poa ≤ max (P x) (P g') := by
        intro h0
        have : P x = poa := by linarith
        exact ⟨x, i1, by linarith, by simpa using hbase, by rw [min_self, this], by rw [max_self, this]⟩
      rcases hw with ⟨hw1, h0 | ⟨h1, h2, h3, h4⟩ | ⟨h1, h2, h3, h4⟩⟩ | h0
      · exact hzero h0
      · refine ⟨x + w, by linarith, h4, ?_, le_trans (min_le_left _ _) (by linarith),
          le_trans (by linarith) (le_max_right _ _)⟩
        rw [add_sub_cancel_left, abs_of_pos h3]; exact hw1
      · refine ⟨x - w, h4, by linarith, ?_, le_trans (min_le_right _ _) (by linarith),
          le_trans (by linarith) (le_max_left _ _)⟩
        rw [show x - w - x = -w by ring, abs_neg, abs_of_pos h3]; exact hw1
      · exact hzero h0
    · intro hsmall
      by_contra hc
      rw [Bool.not_eq_true] at hc
      rcases i6 hc with h7 | h7
      · have : ghiHigh e zen / 2 ^ 25 < xtol := by rw [div_lt_iff₀ (by positivity)]; linarith
        linarith
      · omega

end Main

/-- **C137** with the default tolerance 0.01 (or any not below 0.0001) and any extraterrestrial irradiance up to
2000 W/m², 25 halvings are always enough. -/
theorem ghi_from_poa_default_converges (e zen xtol : ℝ) (he0 : 0 ≤ e) (he : e ≤ 2000) (hx : 0.0001 ≤ xtol) :
    ghiHigh e zen < 2 ^ 25 * xtol := by
  have hc := Real.cos_le_one (zen * (π / 180))
  have : e * cosDeg zen ≤ 2000 := by
    by_cases hcn : 0 ≤ cosDeg zen
    · calc e * cosDeg zen ≤ 2000 * 1 := by apply mul_le_mul he hc hcn (by norm_num)
        _ = 2000 := by ring
    · push Not at hcn; nlinarith
  unfold ghiHigh
  norm_num at hx ⊢
  constructor <;> linarith

example := ghi_from_poa_default_converges 1400 40 0.01 (by norm_num) (by norm_num) (by norm_num)

/-- On a horizontal plane (sun at least 5° up) the forward model is the identity on GHI, so the function recovers the
measured POA itself, to within the tolerance, for every reading up to the bound. -/
theorem forward_horizontal (az zen saz e alb g : ℝ) (airmass : Option Fl) (hg : 0 ≤ g) (he : 0 < e) (hz : 0 ≤ zen)
    (hz' : zen ≤ 85) (ha : airmass = none ∨ ∃ am, 0 < am ∧ airmass = some (fin am)) :
    forward 0 az zen saz e alb airmass g = g := by
  have h90 : zen ≤ 90 := by linarith
  rw [← fin_inj, ← forward_spec 0 az zen saz e alb airmass g hg he hz h90 ha]
  obtain ⟨d, p, hd, hp, heq⟩ := poaFromGhi_is_total (fin 0) (fin az) (fin zen) (fin saz) (fin g) (fin e) (fin alb)
    airmass
  obtain ⟨d', n, h, hd', hn, hh, hn0, hh0, hhg, hcl⟩ := erbs_parts g zen e hg hz he
  have : d = d' := by have := hd.symm.trans hd'; simpa using this
  subst this
  rw [hn, hh] at hp
  obtain ⟨s1, s2, -, ⟨sky, hsky, hsk, -⟩, hgr⟩ := total_sums _ _ _ _ _ _ _ _ _ _ _ _ _ _ _ _ _ hp
  have hdir := total_direct _ _ 0 az zen saz n _ _ _ _ _ _ _ _ _ _ hp
  have hl : pyLower "perez-driesse" = "perez-driesse" := by decide +kernel
  simp only [getSkyDiffuse, hl] at hsky
  simp at hsky
  have hq := perezDriesse_horizontal_shipped az h n e zen saz airmass hh0 hn0 he hz hz' ha
  rw [← hsky] at hsk
  have hskyv : p.poa_sky_diffuse = fin h := by rw [hsk]; exact hq
  have hgrv : p.poa_ground_diffuse = fin 0 := by
    have := ground_horizontal g alb
    rw [zero_eq, hgr] at this
    simpa using this
  have hc : 0 ≤ cosDeg zen := by
    have hpi := Real.pi_pos
    apply Real.cos_nonneg_of_mem_Icc
    constructor
    · have : 0 ≤ zen * (π / 180) := by positivity
      linarith
    · nlinarith
  rw [heq, s1, s2, hdir, hskyv, hgrv, dot_horizontal, max_eq_left (by positivity)]
  simp only [fin_add, fin_inj]
  linarith

/-- **C137** (round trip on the horizontal) the GHI found for a horizontal sensor is its own reading, within
`xtol` plus four machine epsilons, relative. -/
theorem ghi_from_poa_horizontal (az zen saz poa e alb xtol : ℝ) (airmass : Option Fl) (he : 0 < e) (hz : 0 ≤ zen)
    (hz' : zen ≤ 85) (hp : 0 < poa) (hx : 0 < xtol) (hh : poa ≤ ghiHigh e zen)
    (hxx : ghiHigh e zen < 2 ^ 25 * xtol)
    (ha : airmass = none ∨ ∃ am, 0 < am ∧ airmass = some (fin am)) :
    ∃ (g : ℝ) (k : ℕ), ghiFromPoa (fin 0) (fin az) (fin zen) (fin saz) (fin poa) (fin e) airmass (fin alb) (fin xtol) =
        .ok (fin g, true, k) ∧ |g - poa| < xtol + 4 * (2 : ℝ) ^ (-52 : ℤ) * g := by
  have hF : ∀ g, 0 ≤ g → forward 0 az zen saz e alb airmass g = g := fun g hg =>
    forward_horizontal az zen saz e alb g airmass hg he hz hz' ha
  have hh0 : (0 : ℝ) ≤ ghiHigh e zen := le_trans (by norm_num) (le_max_left _ _)
  obtain ⟨g, conv, k, h1, h2, h3, -, -, h5, h6⟩ := ghi_from_poa_feasible 0 az zen saz poa e alb xtol airmass he hz
    (by linarith) hp hx ha (by rw [hF _ hh0]; exact hh)
  have hc := h6 hxx
  subst hc
  refine ⟨g, k, h1, ?_⟩
  obtain ⟨g', g1, g2, g3, g4, g5⟩ := h5 rfl
  rw [hF g h2, hF g' g1] at g4 g5
  rw [abs_lt] at g3 ⊢
  rcases le_total g g' with hle | hle
  · rw [min_eq_left hle] at g4; rw [max_eq_right hle] at g5
    constructor <;> linarith
  · rw [min_eq_right hle] at g4; rw [max_eq_left hle] at g5
    constructor <;> linarith

/-- A horizontal plane under 5 W/m²: feasible, whatever the season. -/
example := ghi_from_poa_feasible 0 180 40 170 5 1367 0.2 0.01 none (by norm_num) (by norm_num) (by norm_num) (by norm_num)
  (by norm_num) (Or.inl rfl) (by
    rw [forward_horizontal 180 40 170 1367 0.2 (ghiHigh 1367 40) none (le_trans (by norm_num) (le_max_left _ _)) (by norm_num) (by norm_num)
      (by norm_num) (Or.inl rfl)]
    exact le_trans (by norm_num) (le_max_left _ _))

/-- Non-vacuity: a horizontal sensor reading 500 W/m² with the sun at 40° is feasible. -/
example : (500 : ℝ) ≤ ghiHigh 1367 40 ∧ (500 : ℝ) ≤ forward 0 180 40 180 1367 0.25 none (ghiHigh 1367 40) := by
  have hc : (1 : ℝ) / 2 ≤ cosDeg 40 := by
    rw [← Real.cos_pi_div_three]
    have hpi := Real.pi_pos
    apply Real.cos_le_cos_of_nonneg_of_le_pi (by positivity) (by linarith) (by linarith)
  have hh : (500 : ℝ) ≤ ghiHigh 1367 40 := by
    unfold ghiHigh
    refine le_trans ?_ (le_max_right _ _)
    norm_num at hc ⊢; linarith
  refine ⟨hh, ?_⟩
  rw [forward_horizontal 180 40 180 1367 0.25 _ none (by linarith) (by norm_num) (by norm_num) (by norm_num) (Or.inl rfl)]
  exact hh

/-- Non-vacuity: a real site meets the hypotheses of the infeasible theorem, for a suitable reading. -/
example : ∃ poa : ℝ, 0 < poa ∧ forward 30 180 40 180 1367 0.25 none (ghiHigh 1367 40) < poa :=
  ⟨max 0 (forward 30 180 40 180 1367 0.25 none (ghiHigh 1367 40)) + 1, by positivity,
    by linarith [le_max_right 0 (forward 30 180 40 180 1367 0.25 none (ghiHigh 1367 40))]⟩

end Pvlib.Props.Reverse
end
