import Verif.Props.TrigValues
import Verif.Props.BifacialShadow
import Mathlib.Analysis.SpecialFunctions.Integrals.Basic
import Mathlib.MeasureTheory.Integral.IntervalIntegral.FundThmCalculus

/-! # C129, C130: crossed strings between rows, ground and sky; independence of the unit of length -/

noncomputable section
open Fl Classical
open scoped Real

namespace Pvlib.Props.BifacialStrings

open Pvlib.Bifacial Pvlib.Tools Pvlib.Props.BifacialShadow

/-! ### Real-valued strings -/

abbrev Pt := ℝ × ℝ

/-- the point as model values -/
def flp (p : Pt) : Fl × Fl := (fin p.1, fin p.2)

/-- Euclidean distance -/
def rdist (p q : Pt) : ℝ := Real.sqrt ((p.1 - q.1) ^ 2 + (p.2 - q.2) ^ 2)
/-- direction from `p` to `q` -/
def rangle (p q : Pt) : ℝ := Complex.arg ⟨q.1 - p.1, q.2 - p.2⟩

/-- string from `p` to `q` around an edge that is in the way -/
def rstring (p q l r : Pt) : ℝ :=
  if 1e-8 < rangle p r - rangle p q then rdist p r + rdist r q
  else if 1e-8 < rangle p q - rangle p l then rdist p l + rdist l q else rdist p q

theorem dist_fin (p q : Pt) : Bifacial.dist (flp p) (flp q) = fin (rdist p q) := by
  unfold Bifacial.dist flp rdist
  dsimp only
  simp only [fin_sub, fin_pow, fin_add]
  rw [sqrt_fin (by positivity)]

theorem angle_fin (p q : Pt) : angle (flp p) (flp q) = fin (rangle p q) := rfl

theorem string_fin (p q l r : Pt) : stringLength (flp p) (flp q) (flp l) (flp r) = fin (rstring p q l r) := by
  unfold stringLength rstring
  simp only [dist_fin, angle_fin, fin_sub, fin_add, Fl.ofScientific_eq, fin_lt]
  unfold npwhere
  split_ifs <;> rfl

theorem crossed_fin (a b c d l r : Pt) : crossedStrings (flp a) (flp b) (flp c) (flp d) (flp l) (flp r) =
    fin ((rstring a c l r + rstring b d l r) - (rstring b c l r + rstring a d l r)) := by
  unfold crossedStrings
  simp only [string_fin, fin_add, fin_sub]

theorem rdist_eq (p q : Pt) : rdist p q = ‖(⟨p.1 - q.1, p.2 - q.2⟩ : ℂ)‖ := by
  unfold rdist
  rw [Complex.norm_def, Complex.normSq_mk]
  congr 1; ring

theorem rdist_triangle (p q r : Pt) : rdist p q ≤ rdist p r + rdist r q := by
  rw [rdist_eq, rdist_eq, rdist_eq]
  have : (⟨p.1 - q.1, p.2 - q.2⟩ : ℂ) = ⟨p.1 - r.1, p.2 - r.2⟩ + ⟨r.1 - q.1, r.2 - q.2⟩ := by
    apply Complex.ext <;> simp
  rw [this]
  exact norm_add_le _ _

theorem rdist_comm (p q : Pt) : rdist p q = rdist q p := by
  unfold rdist; congr 1; ring

/-- **C129a.** A string is never shorter than the straight line. -/
theorem string_ge (p q l r : Pt) : rdist p q ≤ rstring p q l r := by
  unfold rstring
  split_ifs
  · exact rdist_triangle p q r
  · exact rdist_triangle p q l
  · exact le_rfl

/-- The crossed strings of two segments that nothing obstructs: between 0 excess and twice the length of the first. -/
theorem crossed_unobstructed_le (a b c d : Pt) :
    (rdist a c + rdist b d) - (rdist b c + rdist a d) ≤ 2 * rdist a b := by
  have h1 := rdist_triangle a c b
  have h2 := rdist_triangle b d a
  rw [rdist_comm b a] at h2
  linarith

/-! ### Hottel's rule -/

/-- Cosine of the direction from the ground point `x` to `c`. -/
def cosDir (c : Pt) (x : ℝ) : ℝ := (c.1 - x) / Real.sqrt ((c.1 - x) ^ 2 + c.2 ^ 2)

private theorem integral_cos (c : Pt) (hc : c.2 ≠ 0) (x0 x1 : ℝ) :
    ∫ x in x0..x1, cosDir c x = rdist (x0, 0) c - rdist (x1, 0) c := by
  have hp : ∀ x : ℝ, 0 < (c.1 - x) ^ 2 + c.2 ^ 2 := fun x => by positivity
  have hd : ∀ x ∈ Set.uIcc x0 x1, HasDerivAt (fun x => -Real.sqrt ((c.1 - x) ^ 2 + c.2 ^ 2)) (cosDir c x) x := by
    intro x _
    have h1 : HasDerivAt (fun x : ℝ => c.1 - x) (-1) x := (hasDerivAt_id x).const_sub c.1
    have h2 : HasDerivAt (fun x : ℝ => (c.1 - x) ^ 2 + c.2 ^ 2) (2 * (c.1 - x) ^ (2 - 1) * (-1)) x :=
      (h1.pow 2).add_const _
    refine (h2.sqrt (hp x).ne').neg.congr_deriv ?_
    unfold cosDir
    have := Real.sqrt_pos.mpr (hp x)
    field_simp
    ring
  have hcont : Continuous (cosDir c) := by
    unfold cosDir
    exact (by fun_prop : Continuous fun x : ℝ => c.1 - x).div (by fun_prop) fun x => (Real.sqrt_pos.mpr (hp x)).ne'
  rw [intervalIntegral.integral_eq_sub_of_hasDerivAt hd (hcont.intervalIntegrable _ _)]
  unfold rdist
  dsimp only
  have e : ∀ x : ℝ, (x - c.1) ^ 2 + (0 - c.2) ^ 2 = (c.1 - x) ^ 2 + c.2 ^ 2 := fun x => by ring
  rw [e, e]; ring

/-- **C129b.** Hottel's crossed-strings rule: for a ground segment [x0, x1] and a gap between `d` (left) and `c` (right)
above the ground, half the crossed strings per length is the mean over the segment of the point view factors
`(cos φ_c - cos φ_d) / 2` of the gap. -/
theorem hottel (x0 x1 : ℝ) (c d : Pt) (hx : x0 < x1) (hc : c.2 ≠ 0) (hd : d.2 ≠ 0) :
    1 / (2 * (x1 - x0)) * ((rdist (x0, 0) c + rdist (x1, 0) d) - (rdist (x1, 0) c + rdist (x0, 0) d)) =
      1 / (x1 - x0) * ∫ x in x0..x1, (cosDir c x - cosDir d x) / 2 := by
  have hint : ∀ e : Pt, e.2 ≠ 0 → IntervalIntegrable (cosDir e) MeasureTheory.volume x0 x1 := by
    intro e he
    have hp : ∀ x : ℝ, 0 < (e.1 - x) ^ 2 + e.2 ^ 2 := fun x => by positivity
    have : Continuous (cosDir e) := by
      unfold cosDir
      exact (by fun_prop : Continuous fun x : ℝ => e.1 - x).div (by fun_prop) fun x => (Real.sqrt_pos.mpr (hp x)).ne'
    exact this.intervalIntegrable _ _
  rw [intervalIntegral.integral_div, intervalIntegral.integral_sub (hint c hc) (hint d hd), integral_cos c hc, integral_cos d hd]
  have : x1 - x0 ≠ 0 := by linarith
  field_simp
  ring

example := hottel 0 1 (2, 3) (4, 5) (by norm_num) (by norm_num) (by norm_num)

/-! ### Ground to sky -/

/-- corner points of gap `k`, as in the model -/
private def gsC (θ gcr h pitch : ℝ) (k : ℤ) : Pt :=
  ((k + 1) * pitch + (if 0 < θ then 1 else if θ < 0 then -1 else 0) * 0.5 * (pitch * gcr * Real.cos (θ * (π / 180))),
    h + (if 0 < θ then 1 else if θ < 0 then -1 else 0) * 0.5 * (pitch * gcr * Real.sin (θ * (π / 180))))
private def gsLeft (θ gcr h pitch : ℝ) (k : ℤ) : Pt :=
  (k * pitch - 0.5 * (pitch * gcr * Real.cos (θ * (π / 180))), h - 0.5 * (pitch * gcr * Real.sin (θ * (π / 180))))
private def gsRight (θ gcr h pitch : ℝ) (k : ℤ) : Pt :=
  (k * pitch + 0.5 * (pitch * gcr * Real.cos (θ * (π / 180))), h + 0.5 * (pitch * gcr * Real.sin (θ * (π / 180))))

/-- shifting a point horizontally -/
private def shift (p : Pt) (s : ℝ) : Pt := (p.1 + s, p.2)

private def obL (θ gcr h pitch g0 : ℝ) (k : ℤ) : Pt :=
  if rangle (g0 * pitch, 0) (gsRight θ gcr h pitch k) < rangle (g0 * pitch, 0) (gsLeft θ gcr h pitch k)
  then gsRight θ gcr h pitch k else gsLeft θ gcr h pitch k
private def obR (θ gcr h pitch g1 : ℝ) (k : ℤ) : Pt :=
  if rangle (g1 * pitch, 0) (shift (gsRight θ gcr h pitch k) pitch) < rangle (g1 * pitch, 0) (shift (gsLeft θ gcr h pitch k) pitch)
  then shift (gsLeft θ gcr h pitch k) pitch else shift (gsRight θ gcr h pitch k) pitch

/-- The real value of a slat. -/
def slatR (θ gcr h pitch g0 g1 : ℝ) (k : ℤ) : ℝ :=
  let a : Pt := (g0 * pitch, 0)
  let b : Pt := (g1 * pitch, 0)
  let c := gsC θ gcr h pitch k
  let d := shift c (-pitch)
  let l := obL θ gcr h pitch g0 k
  let r := obR θ gcr h pitch g1 k
  0.5 * (1 / ((g1 - g0) * pitch)) * ((rstring a c l r + rstring b d l r) - (rstring b c l r + rstring a d l r))

theorem groundSkySlat_fin (θ gcr h pitch g0 g1 : ℝ) (k : ℤ) (hp : 0 < pitch) (hg : g0 < g1) :
    groundSkySlat (fin θ) (fin gcr) (fin h) (fin pitch) (fin g0) (fin g1) k = fin (slatR θ gcr h pitch g0 g1 k) := by
  have hne : (g1 - g0) * pitch ≠ 0 := (mul_pos (by linarith) hp).ne'
  change 0.5 * (1 / ((fin g1 - fin g0) * fin pitch)) * crossedStrings (flp (g0 * pitch, 0)) (flp (g1 * pitch, 0))
    (flp (gsC θ gcr h pitch k)) (flp (shift (gsC θ gcr h pitch k) (-pitch)))
    (if angle (flp (g0 * pitch, 0)) (flp (gsRight θ gcr h pitch k)) < angle (flp (g0 * pitch, 0)) (flp (gsLeft θ gcr h pitch k))
      then flp (gsRight θ gcr h pitch k) else flp (gsLeft θ gcr h pitch k))
    (if angle (flp (g1 * pitch, 0)) (flp (shift (gsRight θ gcr h pitch k) pitch)) <
        angle (flp (g1 * pitch, 0)) (flp (shift (gsLeft θ gcr h pitch k) pitch))
      then flp (shift (gsLeft θ gcr h pitch k) pitch) else flp (shift (gsRight θ gcr h pitch k) pitch)) = _
  have hL : (if angle (flp (g0 * pitch, 0)) (flp (gsRight θ gcr h pitch k)) < angle (flp (g0 * pitch, 0)) (flp (gsLeft θ gcr h pitch k))
      then flp (gsRight θ gcr h pitch k) else flp (gsLeft θ gcr h pitch k)) = flp (obL θ gcr h pitch g0 k) := by
    unfold obL
    by_cases hc : rangle (g0 * pitch, 0) (gsRight θ gcr h pitch k) < rangle (g0 * pitch, 0) (gsLeft θ gcr h pitch k)
    · rw [if_pos hc]; exact if_pos hc
    · rw [if_neg hc]; exact if_neg hc
  have hR : (if angle (flp (g1 * pitch, 0)) (flp (shift (gsRight θ gcr h pitch k) pitch)) <
        angle (flp (g1 * pitch, 0)) (flp (shift (gsLeft θ gcr h pitch k) pitch))
      then flp (shift (gsLeft θ gcr h pitch k) pitch) else flp (shift (gsRight θ gcr h pitch k) pitch)) =
      flp (obR θ gcr h pitch g1 k) := by
    unfold obR
    by_cases hc : rangle (g1 * pitch, 0) (shift (gsRight θ gcr h pitch k) pitch) < rangle (g1 * pitch, 0) (shift (gsLeft θ gcr h pitch k) pitch)
    · rw [if_pos hc]; exact if_pos hc
    · rw [if_neg hc]; exact if_neg hc
  rw [hL, hR]
  rw [crossed_fin, fin_sub, fin_mul, one_eq, fin_div hne, Fl.ofScientific_eq, fin_mul, fin_mul]
  rfl

theorem integ_fin (θ gcr h pitch g0 g1 : ℝ) (n : ℤ) (hp : 0 < pitch) (hg : g0 < g1) :
    vfGroundSky2dInteg (fin θ) (fin gcr) (fin h) (fin pitch) n (fin g0) (fin g1) =
      fin ((arange (-n) (n + 1)).map fun k : ℤ => max (slatR θ gcr h pitch g0 g1 k) 0).sum := by
  unfold vfGroundSky2dInteg
  have : ((arange (-n) (n + 1)).map fun k : ℤ => maximum (groundSkySlat (fin θ) (fin gcr) (fin h) (fin pitch) (fin g0) (fin g1) k) 0) =
      ((arange (-n) (n + 1)).map fun k : ℤ => max (slatR θ gcr h pitch g0 g1 k) 0).map fin := by
    rw [List.map_map]
    refine List.map_congr_left fun k _ => ?_
    rw [groundSkySlat_fin θ gcr h pitch g0 g1 k hp hg, zero_eq, maximum_fin]; rfl
  rw [this, sum_fin]

/-- **C129c.** The view factor from a ground segment to the sky is finite and not negative. -/
theorem ground_sky_integ_nonneg (θ gcr h pitch g0 g1 : ℝ) (n : ℤ) (hp : 0 < pitch) (hg : g0 < g1) :
    ∃ v : ℝ, vfGroundSky2dInteg (fin θ) (fin gcr) (fin h) (fin pitch) n (fin g0) (fin g1) = fin v ∧ 0 ≤ v := by
  refine ⟨_, integ_fin θ gcr h pitch g0 g1 n hp hg, ?_⟩
  refine List.sum_nonneg ?_
  intro y hy
  rw [List.mem_map] at hy
  obtain ⟨k, -, rfl⟩ := hy
  exact le_max_right _ _

example := ground_sky_integ_nonneg 20 0.4 1.5 3 0 0.5 10 (by norm_num) (by norm_num)

/-! ### Row to ground -/

/-- the tilt actually used: 179.9999 in place of 180 -/
def safeTilt (β : ℝ) : ℝ := if β = 180 then 179.9999 else if β = -180 then -179.9999 else β

private def rgOb (β gcr h pitch : ℝ) : Pt :=
  (-pitch - 0.5001 * (pitch * gcr * Real.cos (safeTilt β * (π / 180))),
    h - 0.5001 * |pitch * gcr * Real.sin (safeTilt β * (π / 180))|)
private def rgR (β gcr h pitch : ℝ) : Pt :=
  if safeTilt β < 0 then (-((rgOb β gcr h pitch).1 + pitch), (rgOb β gcr h pitch).2) else rgOb β gcr h pitch
private def rgL (β gcr h pitch : ℝ) : Pt :=
  if safeTilt β < 0 then (-(rgOb β gcr h pitch).1, (rgOb β gcr h pitch).2) else shift (rgOb β gcr h pitch) pitch

/-- the point a fraction `x` along the row -/
def rowPoint (β gcr h pitch x : ℝ) : Pt :=
  ((x - 0.5) * (pitch * gcr * Real.cos (safeTilt β * (π / 180))),
    h + (x - 0.5) * (pitch * gcr * Real.sin (safeTilt β * (π / 180))))

/-- length of the string from a point of the row to the ground point `y` (in pitches) around the edges -/
def toGround (β gcr h pitch x y : ℝ) : ℝ :=
  rstring (rowPoint β gcr h pitch x) (y * pitch, 0) (rgL β gcr h pitch) (rgR β gcr h pitch)

/-- The real value of a cell. -/
def cellR (β gcr h pitch x0 x1 y0 y1 : ℝ) : ℝ :=
  1 / (2 * (x1 - x0) * (pitch * gcr)) *
    ((toGround β gcr h pitch x0 y0 + toGround β gcr h pitch x1 y1) -
      (toGround β gcr h pitch x1 y0 + toGround β gcr h pitch x0 y1))

theorem rowGroundSlat_fin (β gcr h pitch x0 x1 g0 g1 : ℝ) (k : ℤ) (hp : 0 < pitch) (hgcr : 0 < gcr) (hx : x0 < x1) :
    rowGroundSlat (fin β) (fin gcr) (fin h) (fin pitch) (fin x0) (fin x1) (fin g0) (fin g1) k =
      fin (cellR β gcr h pitch x0 x1 (k + g0) (k + g1)) := by
  have hne : 2 * (x1 - x0) * (pitch * gcr) ≠ 0 := by
    have : 0 < x1 - x0 := by linarith
    positivity
  have ht : npwhere (npwhere ((fin β : Fl) = 180) 179.9999 (fin β) = -180) (-179.9999) (npwhere ((fin β : Fl) = 180) 179.9999 (fin β)) =
      fin (safeTilt β) := by
    unfold safeTilt
    by_cases h1 : β = 180
    · rw [npwhere_pos (show (fin β : Fl) = 180 by rw [h1]; rfl), if_pos h1,
        npwhere_neg (by simp only [Fl.ofScientific_eq, ofNat_eq, neg_fin, fin_inj]; norm_num)]
      rfl
    · rw [npwhere_neg (show ¬ (fin β : Fl) = 180 by rw [ofNat_eq, fin_inj]; exact h1), if_neg h1]
      by_cases h2 : β = -180
      · rw [npwhere_pos (show (fin β : Fl) = -180 by rw [h2]; rfl), if_pos h2]; rfl
      · rw [npwhere_neg (show ¬ (fin β : Fl) = -180 by rw [ofNat_eq, neg_fin, fin_inj]; exact h2), if_neg h2]
  unfold rowGroundSlat
  dsimp only
  rw [ht]
  have ea : (((fin x0 - 0.5) * (fin pitch * fin gcr * cosd (fin (safeTilt β))),
      fin h + (fin x0 - 0.5) * (fin pitch * fin gcr * sind (fin (safeTilt β)))) : Fl × Fl) = flp (rowPoint β gcr h pitch x0) := rfl
  have eb : (((fin x1 - 0.5) * (fin pitch * fin gcr * cosd (fin (safeTilt β))),
      fin h + (fin x1 - 0.5) * (fin pitch * fin gcr * sind (fin (safeTilt β)))) : Fl × Fl) = flp (rowPoint β gcr h pitch x1) := rfl
  have ec : (((fin (k:ℝ) + fin g0) * fin pitch, 0) : Fl × Fl) = flp ((k + g0) * pitch, 0) := rfl
  have ed : (((fin (k:ℝ) + fin g1) * fin pitch, 0) : Fl × Fl) = flp ((k + g1) * pitch, 0) := rfl
  have er : ((npwhere (fin (safeTilt β) < 0) (-(-fin pitch - 0.5001 * (fin pitch * fin gcr * cosd (fin (safeTilt β))) + fin pitch))
      (-fin pitch - 0.5001 * (fin pitch * fin gcr * cosd (fin (safeTilt β)))),
      fin h - 0.5001 * Fl.abs (fin pitch * fin gcr * sind (fin (safeTilt β)))) : Fl × Fl) = flp (rgR β gcr h pitch) := by
    unfold rgR
    by_cases hs : safeTilt β < 0
    · rw [npwhere_pos (show (fin (safeTilt β) : Fl) < 0 from hs), if_pos hs]; rfl
    · rw [npwhere_neg (show ¬ (fin (safeTilt β) : Fl) < 0 from hs), if_neg hs]; rfl
  have el : ((npwhere (fin (safeTilt β) < 0) (-(-fin pitch - 0.5001 * (fin pitch * fin gcr * cosd (fin (safeTilt β)))))
      (-fin pitch - 0.5001 * (fin pitch * fin gcr * cosd (fin (safeTilt β))) + fin pitch),
      fin h - 0.5001 * Fl.abs (fin pitch * fin gcr * sind (fin (safeTilt β)))) : Fl × Fl) = flp (rgL β gcr h pitch) := by
    unfold rgL
    by_cases hs : safeTilt β < 0
    · rw [npwhere_pos (show (fin (safeTilt β) : Fl) < 0 from hs), if_pos hs]; rfl
    · rw [npwhere_neg (show ¬ (fin (safeTilt β) : Fl) < 0 from hs), if_neg hs]; rfl
  rw [ea, eb, ec, ed, er, el, crossed_fin, fin_sub, ofNat_eq, fin_mul, fin_mul, fin_mul, one_eq, fin_div hne, fin_mul]
  rfl

/-- **C129d.** Adjoining pieces of ground add up: the crossed strings from a row segment to [y0, y1] and [y1, y2]
together are those to [y0, y2]. -/
theorem row_ground_additive (β gcr h pitch x0 x1 g0 g1 g2 : ℝ) (k : ℤ) (hp : 0 < pitch) (hgcr : 0 < gcr) (hx : x0 < x1) :
    rowGroundSlat (fin β) (fin gcr) (fin h) (fin pitch) (fin x0) (fin x1) (fin g0) (fin g1) k +
      rowGroundSlat (fin β) (fin gcr) (fin h) (fin pitch) (fin x0) (fin x1) (fin g1) (fin g2) k =
      rowGroundSlat (fin β) (fin gcr) (fin h) (fin pitch) (fin x0) (fin x1) (fin g0) (fin g2) k := by
  rw [rowGroundSlat_fin _ _ _ _ _ _ _ _ _ hp hgcr hx, rowGroundSlat_fin _ _ _ _ _ _ _ _ _ hp hgcr hx,
    rowGroundSlat_fin _ _ _ _ _ _ _ _ _ hp hgcr hx, fin_add, fin_inj]
  unfold cellR
  ring

example := row_ground_additive 20 0.4 1.5 3 0 1 0 0.5 1 2 (by norm_num) (by norm_num) (by norm_num)

/-- Adjoining parts of a row, weighted by their lengths, add up. -/
theorem row_ground_additive_row (β gcr h pitch x0 x1 x2 y0 y1 : ℝ) (hp : 0 < pitch) (hgcr : 0 < gcr)
    (h1 : x0 < x1) (h2 : x1 < x2) :
    (x1 - x0) * cellR β gcr h pitch x0 x1 y0 y1 + (x2 - x1) * cellR β gcr h pitch x1 x2 y0 y1 =
      (x2 - x0) * cellR β gcr h pitch x0 x2 y0 y1 := by
  unfold cellR
  have : x1 - x0 ≠ 0 := by linarith
  have : x2 - x1 ≠ 0 := by linarith
  have : x2 - x0 ≠ 0 := by linarith
  field_simp
  ring

example := row_ground_additive_row 20 0.4 1.5 3 0 0.5 1 0 1 (by norm_num) (by norm_num) (by norm_num) (by norm_num)

/-- The view factor to the whole ground below the summed rows telescopes to the outermost strings, if no cell is
negative. -/
theorem row_ground_telescopes (β gcr h pitch x0 x1 : ℝ) (lo : ℤ) (m : ℕ)
    (hpos : ∀ k : ℤ, lo ≤ k → k < lo + m → 0 ≤ cellR β gcr h pitch x0 x1 k (k + 1)) :
    ((arange lo (lo + m)).map fun k : ℤ => max (cellR β gcr h pitch x0 x1 k (k + 1)) 0).sum =
      cellR β gcr h pitch x0 x1 lo (lo + m) := by
  induction m with
  | zero =>
    unfold cellR arange
    simp only [Nat.cast_zero, add_zero, sub_self, Int.toNat_zero, List.range_zero, List.map_nil, List.sum_nil]
    ring
  | succ m ih =>
    rw [show lo + ((m + 1 : ℕ) : ℤ) = (lo + m) + 1 by push_cast; ring, arange_succ _ _ (by omega), List.map_append, List.sum_append,
      ih fun k h1 h2 => hpos k h1 (by push_cast; omega)]
    simp only [List.map_cons, List.map_nil, List.sum_cons, List.sum_nil, add_zero]
    rw [max_eq_left (hpos (lo + m) (by omega) (by push_cast; omega))]
    unfold cellR
    push_cast
    rw [← add_assoc]
    ring

theorem row_integ_fin (β gcr h pitch x0 x1 g0 g1 : ℝ) (n : ℤ) (hp : 0 < pitch) (hgcr : 0 < gcr) (hx : x0 < x1) :
    Fl.sum ((arange (-n) n).map fun k : ℤ =>
      maximum (rowGroundSlat (fin β) (fin gcr) (fin h) (fin pitch) (fin x0) (fin x1) (fin g0) (fin g1) k) 0) =
      fin ((arange (-n) n).map fun k : ℤ => max (cellR β gcr h pitch x0 x1 (k + g0) (k + g1)) 0).sum := by
  have : ((arange (-n) n).map fun k : ℤ =>
      maximum (rowGroundSlat (fin β) (fin gcr) (fin h) (fin pitch) (fin x0) (fin x1) (fin g0) (fin g1) k) 0) =
      ((arange (-n) n).map fun k : ℤ => max (cellR β gcr h pitch x0 x1 (k + g0) (k + g1)) 0).map fin := by
    rw [List.map_map]
    refine List.map_congr_left fun k _ => ?_
    rw [rowGroundSlat_fin _ _ _ _ _ _ _ _ _ hp hgcr hx, zero_eq, maximum_fin]; rfl
  rw [this, sum_fin]

/-- The view factor from a row segment to a ground segment is finite and not negative; for the whole row and ground it
does not depend on height and pitch, which may be missing. -/
theorem row_ground_integ_nonneg (β gcr h pitch x0 x1 g0 g1 : ℝ) (n : ℤ) (hp : 0 < pitch) (hgcr : 0 < gcr) (hx : x0 < x1) :
    ∃ v : ℝ, vfRowGround2dInteg (fin β) (fin gcr) (fin h) (fin pitch) (fin x0) (fin x1) n (fin g0) (fin g1) = fin v ∧ 0 ≤ v := by
  unfold vfRowGround2dInteg
  dsimp only
  by_cases hw : (fin g0 : Fl) = 0 ∧ (fin g1 : Fl) = 1 ∧ (fin x0 : Fl) = 0 ∧ (fin x1 : Fl) = 1
  · rw [if_pos hw, if_pos hw, one_eq, fin_div hgcr.ne']
    refine ⟨_, row_integ_fin β gcr 1 (1 / gcr) x0 x1 g0 g1 n (by positivity) hgcr hx, ?_⟩
    refine List.sum_nonneg ?_
    intro y hy
    rw [List.mem_map] at hy
    obtain ⟨k, -, rfl⟩ := hy
    exact le_max_right _ _
  · rw [if_neg hw, if_neg hw]
    refine ⟨_, row_integ_fin β gcr h pitch x0 x1 g0 g1 n hp hgcr hx, ?_⟩
    refine List.sum_nonneg ?_
    intro y hy
    rw [List.mem_map] at hy
    obtain ⟨k, -, rfl⟩ := hy
    exact le_max_right _ _

example := row_ground_integ_nonneg 20 0.4 1.5 3 0 1 0 1 10 (by norm_num) (by norm_num) (by norm_num)

theorem row_ground_whole (β gcr h pitch h' pitch' : Fl) (n : ℤ) :
    vfRowGround2dInteg β gcr h pitch 0 1 n = vfRowGround2dInteg β gcr h' pitch' 0 1 n := by
  unfold vfRowGround2dInteg
  dsimp only
  simp

/-! ### Independence of the unit of length -/

private def scale (c : ℝ) (p : Pt) : Pt := (c * p.1, c * p.2)

private theorem rdist_scale (c : ℝ) (hc : 0 < c) (p q : Pt) : rdist (scale c p) (scale c q) = c * rdist p q := by
  unfold rdist scale
  dsimp only
  rw [show (c * p.1 - c * q.1) ^ 2 + (c * p.2 - c * q.2) ^ 2 = c ^ 2 * ((p.1 - q.1) ^ 2 + (p.2 - q.2) ^ 2) by ring,
    Real.sqrt_mul (by positivity), Real.sqrt_sq hc.le]

private theorem rangle_scale (c : ℝ) (hc : 0 < c) (p q : Pt) : rangle (scale c p) (scale c q) = rangle p q := by
  unfold rangle scale
  dsimp only
  have : (⟨c * q.1 - c * p.1, c * q.2 - c * p.2⟩ : ℂ) = (c : ℂ) * ⟨q.1 - p.1, q.2 - p.2⟩ := by
    apply Complex.ext <;> simp <;> ring
  rw [this, Complex.arg_real_mul _ hc]

private theorem rstring_scale (c : ℝ) (hc : 0 < c) (p q l r : Pt) :
    rstring (scale c p) (scale c q) (scale c l) (scale c r) = c * rstring p q l r := by
  unfold rstring
  simp only [rdist_scale c hc, rangle_scale c hc]
  split_ifs <;> ring

private theorem scale_ite (P : Prop) (c : ℝ) (p q : Pt) : (if P then scale c p else scale c q) = scale c (if P then p else q) := by
  split_ifs <;> rfl

private theorem slat_scale (c θ gcr h pitch g0 g1 : ℝ) (k : ℤ) (hc : 0 < c) (hp : 0 < pitch) (hg : g0 < g1) :
    slatR θ gcr (c * h) (c * pitch) g0 g1 k = slatR θ gcr h pitch g0 g1 k := by
  have eC : gsC θ gcr (c * h) (c * pitch) k = scale c (gsC θ gcr h pitch k) := by
    unfold gsC scale; ext <;> dsimp only <;> ring
  have eL : gsLeft θ gcr (c * h) (c * pitch) k = scale c (gsLeft θ gcr h pitch k) := by
    unfold gsLeft scale; ext <;> dsimp only <;> ring
  have eR : gsRight θ gcr (c * h) (c * pitch) k = scale c (gsRight θ gcr h pitch k) := by
    unfold gsRight scale; ext <;> dsimp only <;> ring
  have eS : ∀ (p : Pt) (s : ℝ), shift (scale c p) (c * s) = scale c (shift p s) := by
    intro p s; unfold shift scale; ext <;> dsimp only; ring
  have ea : ∀ g : ℝ, ((g * (c * pitch), 0) : Pt) = scale c (g * pitch, 0) := by
    intro g; unfold scale; ext <;> dsimp only <;> ring
  have eoL : obL θ gcr (c * h) (c * pitch) g0 k = scale c (obL θ gcr h pitch g0 k) := by
    unfold obL; rw [eL, eR, ea, rangle_scale c hc, rangle_scale c hc, scale_ite]
  have eoR : obR θ gcr (c * h) (c * pitch) g1 k = scale c (obR θ gcr h pitch g1 k) := by
    unfold obR; rw [eL, eR, ea, eS, eS, rangle_scale c hc, rangle_scale c hc, scale_ite]
  unfold slatR
  dsimp only
  rw [eC, eoL, eoR, ea, ea, show -(c * pitch) = c * (-pitch) by ring, eS]
  simp only [rstring_scale c hc]
  have : g1 - g0 ≠ 0 := by linarith
  field_simp

private theorem cell_scale (c β gcr h pitch x0 x1 y0 y1 : ℝ) (hc : 0 < c) (hp : 0 < pitch) (hgcr : 0 < gcr) (hx : x0 < x1) :
    cellR β gcr (c * h) (c * pitch) x0 x1 y0 y1 = cellR β gcr h pitch x0 x1 y0 y1 := by
  have eO : rgOb β gcr (c * h) (c * pitch) = scale c (rgOb β gcr h pitch) := by
    unfold rgOb scale
    ext <;> dsimp only
    · ring
    · rw [show c * pitch * gcr * Real.sin (safeTilt β * (π / 180)) = c * (pitch * gcr * Real.sin (safeTilt β * (π / 180))) by ring,
        abs_mul, abs_of_pos hc]; ring
  have eR : rgR β gcr (c * h) (c * pitch) = scale c (rgR β gcr h pitch) := by
    unfold rgR
    rw [eO, ← scale_ite]
    split_ifs
    · unfold scale; ext <;> dsimp only; ring
    · rfl
  have eL : rgL β gcr (c * h) (c * pitch) = scale c (rgL β gcr h pitch) := by
    unfold rgL
    rw [eO, ← scale_ite]
    split_ifs
    · unfold scale; ext <;> dsimp only; ring
    · unfold scale shift; ext <;> dsimp only; ring
  have eP : ∀ x : ℝ, rowPoint β gcr (c * h) (c * pitch) x = scale c (rowPoint β gcr h pitch x) := by
    intro x; unfold rowPoint scale; ext <;> dsimp only <;> ring
  have ea : ∀ g : ℝ, ((g * (c * pitch), 0) : Pt) = scale c (g * pitch, 0) := by
    intro g; unfold scale; ext <;> dsimp only <;> ring
  have eT : ∀ x y : ℝ, toGround β gcr (c * h) (c * pitch) x y = c * toGround β gcr h pitch x y := by
    intro x y; unfold toGround; rw [eP, ea, eL, eR, rstring_scale c hc]
  unfold cellR
  simp only [eT]
  have : x1 - x0 ≠ 0 := by linarith
  field_simp

/-- **C130a.** Ground to sky: the unit in which height and pitch are measured does not matter. -/
theorem ground_sky_scale (c θ gcr h pitch g0 g1 : ℝ) (n : ℤ) (hc : 0 < c) (hp : 0 < pitch) (hg : g0 < g1) :
    vfGroundSky2dInteg (fin θ) (fin gcr) (fin (c * h)) (fin (c * pitch)) n (fin g0) (fin g1) =
      vfGroundSky2dInteg (fin θ) (fin gcr) (fin h) (fin pitch) n (fin g0) (fin g1) := by
  rw [integ_fin _ _ _ _ _ _ _ (mul_pos hc hp) hg, integ_fin _ _ _ _ _ _ _ hp hg]
  simp only [slat_scale c θ gcr h pitch g0 g1 _ hc hp hg]

/-- **C130b.** Row to ground. -/
theorem row_ground_scale (c β gcr h pitch x0 x1 g0 g1 : ℝ) (n : ℤ) (hc : 0 < c) (hp : 0 < pitch) (hgcr : 0 < gcr) (hx : x0 < x1) :
    vfRowGround2dInteg (fin β) (fin gcr) (fin (c * h)) (fin (c * pitch)) (fin x0) (fin x1) n (fin g0) (fin g1) =
      vfRowGround2dInteg (fin β) (fin gcr) (fin h) (fin pitch) (fin x0) (fin x1) n (fin g0) (fin g1) := by
  unfold vfRowGround2dInteg
  dsimp only
  by_cases hw : (fin g0 : Fl) = 0 ∧ (fin g1 : Fl) = 1 ∧ (fin x0 : Fl) = 0 ∧ (fin x1 : Fl) = 1
  · simp only [if_pos hw]
  · simp only [if_neg hw]
    rw [row_integ_fin _ _ _ _ _ _ _ _ _ (mul_pos hc hp) hgcr hx, row_integ_fin _ _ _ _ _ _ _ _ _ hp hgcr hx]
    simp only [cell_scale c β gcr h pitch x0 x1 _ _ hc hp hgcr hx]

example := row_ground_scale 100 20 0.4 1.5 3 0 1 0 1 10 (by norm_num) (by norm_num) (by norm_num) (by norm_num)

/-- **C130c.** Shade on the ground. -/
theorem unshaded_scale (c θ φ gcr h pitch mz g0 g1 : ℝ) (n : ℤ) (hc : 0 < c) (hp : 0 < pitch) (hg : g0 < g1)
    (hφ : Real.cos (φ * (π / 180)) ≠ 0) :
    unshadedGround (fin θ) (fin φ) (fin gcr) (fin (c * h)) (fin (c * pitch)) n (fin mz) (fin g0) (fin g1) =
      unshadedGround (fin θ) (fin φ) (fin gcr) (fin h) (fin pitch) n (fin mz) (fin g0) (fin g1) := by
  by_cases hz : |φ| ≤ mz
  · rw [unshaded_fin θ φ gcr _ _ mz g0 g1 n (mul_pos hc hp) hg hφ hz, unshaded_fin θ φ gcr _ _ mz g0 g1 n hp hg hφ hz, fin_inj]
    have e : ∀ k : ℤ, part θ φ (c * pitch * gcr) (c * h) (c * pitch) (g0 * (c * pitch)) (g1 * (c * pitch)) k =
        c * part θ φ (pitch * gcr) h pitch (g0 * pitch) (g1 * pitch) k := by
      intro k
      unfold part overlap
      have e1 : shadowOf φ (leftEdge θ (c * pitch * gcr) (c * h) (c * pitch) k) =
          c * shadowOf φ (leftEdge θ (pitch * gcr) h pitch k) := by
        unfold shadowOf leftEdge; dsimp only; ring
      have e2 : shadowOf φ (rightEdge θ (c * pitch * gcr) (c * h) (c * pitch) k) =
          c * shadowOf φ (rightEdge θ (pitch * gcr) h pitch k) := by
        unfold shadowOf rightEdge; dsimp only; ring
      rw [e1, e2, ← mul_min_of_nonneg _ _ hc.le, ← mul_max_of_nonneg _ _ hc.le, show g0 * (c * pitch) = c * (g0 * pitch) by ring,
        show g1 * (c * pitch) = c * (g1 * pitch) by ring, ← mul_min_of_nonneg _ _ hc.le, ← mul_max_of_nonneg _ _ hc.le,
        ← mul_sub, mul_max_of_nonneg _ _ hc.le, mul_zero]
    simp only [e]
    rw [List.sum_map_mul_left, show g1 * (c * pitch) - g0 * (c * pitch) = c * (g1 * pitch - g0 * pitch) by ring,
      mul_div_mul_left _ _ hc.ne']
  · unfold unshadedGround
    dsimp only
    rw [npwhere_pos, npwhere_pos]
    all_goals rw [abs_fin, fin_lt]; exact not_le.mp hz

example := unshaded_scale 100 20 35 0.4 1.5 3 89 0 1 10 (by norm_num) (by norm_num) (by norm_num)
  (Spec.cosDeg_ne_of (by norm_num) (by norm_num))

theorem maxRows_scale (c h pitch d : ℝ) (hc : 0 < c) :
    maxRows (fin (c * h)) (fin (c * pitch)) (fin d) = maxRows (fin h) (fin pitch) (fin d) := by
  unfold maxRows
  have : fin (c * h) / (fin (c * pitch) * tand (fin d)) = fin h / (fin pitch * tand (fin d)) := by
    unfold tand
    rw [radians_fin, tan_fin']
    split_ifs
    · have e : infSign (c * pitch) = infSign pitch := by
        unfold infSign
        simp only [mul_pos_iff_of_pos_left hc, mul_neg_iff, hc, not_lt.mpr hc.le, true_and, false_and, or_false]
      rw [fin_mul_pinf, fin_mul_pinf, e]
      unfold infSign
      split_ifs <;> simp
    · rw [fin_mul, fin_mul, fin_div', fin_div', mul_assoc]
      by_cases h0 : pitch * Real.tan (d * (π / 180)) = 0
      · rw [if_pos (by rw [h0, mul_zero]), if_pos h0]
        unfold infSign
        simp only [mul_pos_iff_of_pos_left hc, mul_neg_iff, hc, not_lt.mpr hc.le, true_and, false_and, or_false]
      · rw [if_neg (mul_ne_zero hc.ne' h0), if_neg h0, mul_div_mul_left _ _ hc.ne']
  rw [this]

example := maxRows_scale 100 1.5 3 5 (by norm_num)

/-- **C130d.** The irradiance on one side of a row does not depend on the unit of length. -/
theorem sheds_scale (c β az z saz gcr h pitch : ℝ) (ghi dhi dni albedo iam : Fl) (hc : 0 < c) (hp : 0 < pitch) :
    shedsSide (fin β) (fin az) (fin z) (fin saz) (fin gcr) (fin (c * h)) (fin (c * pitch)) ghi dhi dni albedo iam =
      shedsSide (fin β) (fin az) (fin z) (fin saz) (fin gcr) (fin h) (fin pitch) ghi dhi dni albedo iam := by
  unfold shedsSide
  dsimp only
  rw [show (5 : Fl) = fin 5 from rfl, maxRows_scale c h pitch 5 hc, show (0 : Fl) = fin 0 from rfl, show (1 : Fl) = fin 1 from rfl,
    ground_sky_scale c β gcr h pitch 0 1 _ hc hp zero_lt_one]

/-- Centimetres instead of metres. -/
example : vfGroundSky2dInteg 20 0.4 (fin (100 * 1.5)) (fin (100 * 3)) 10 0 0.5 = vfGroundSky2dInteg 20 0.4 (fin 1.5) (fin 3) 10 0 0.5 :=
  ground_sky_scale 100 20 0.4 1.5 3 0 0.5 10 (by norm_num) (by norm_num) (by norm_num)

end Pvlib.Props.BifacialStrings
end
