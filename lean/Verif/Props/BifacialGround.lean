import Verif.Props.BifacialShadow

/-! # C128: the sky view factor of a point on the ground below rows of modules -/

noncomputable section
open Fl Classical MeasureTheory
open scoped Real

namespace Pvlib.Props.BifacialGround

open Pvlib.Bifacial Pvlib.Tools Pvlib.Props.BifacialShadow

/-! ### Specification

Rows as in `BifacialShadow`: `leftEdge` and `rightEdge` of row `k`.  A direction from the ground is given by its
cosine `t`; by Lambert's law the view factor of a set of directions is half the length of the set of their cosines. -/

/-- The ray from the ground point `(x, 0)` in the direction `(t, √(1 - t²))` meets row `k`. -/
def blocked (θ w h pitch x t : ℝ) (k : ℤ) : Prop :=
  ∃ r > 0, ∃ s ∈ Set.Icc (0:ℝ) 1,
    x + r * t = (1 - s) * (rightEdge θ w h pitch k).1 + s * (leftEdge θ w h pitch k).1 ∧
    r * Real.sqrt (1 - t ^ 2) = (1 - s) * (rightEdge θ w h pitch k).2 + s * (leftEdge θ w h pitch k).2

/-- Directions between row `-n` and row `n + 1` that meet none of the rows from `-n` to `n + 1`. -/
def visible (θ w h pitch x : ℝ) (n : ℤ) : Set ℝ :=
  {t | t ∈ Set.Ioo (-1:ℝ) 1 ∧ (∃ t' ∈ Set.Ioc (-1:ℝ) t, blocked θ w h pitch x t' (-n)) ∧
    (∃ t' ∈ Set.Ico t 1, blocked θ w h pitch x t' (n + 1)) ∧
    ∀ k : ℤ, -n ≤ k → k ≤ n + 1 → ¬ blocked θ w h pitch x t k}

/-! ### Cosines of directions -/

/-- cosine of the direction to `(X, a)` -/
def cosTo (X a : ℝ) : ℝ := X / Real.sqrt (X ^ 2 + a ^ 2)

private theorem norm_pos (X a : ℝ) (ha : 0 < a) : 0 < Real.sqrt (X ^ 2 + a ^ 2) :=
  Real.sqrt_pos.mpr (by positivity)

private theorem cosTo_strictMono (a : ℝ) (ha : 0 < a) : StrictMono fun X => cosTo X a := by
  intro X Y h
  unfold cosTo
  have e : ∀ X : ℝ, X / Real.sqrt (X ^ 2 + a ^ 2) = Real.sin (Real.arctan (X / a)) := by
    intro X
    rw [Real.sin_arctan, show (1 : ℝ) + (X / a) ^ 2 = (X ^ 2 + a ^ 2) / a ^ 2 by field_simp; ring,
      Real.sqrt_div (by positivity), Real.sqrt_sq ha.le]
    have := norm_pos X a ha
    field_simp
  dsimp only
  rw [e, e]
  have h1 : Real.arctan (X / a) < Real.arctan (Y / a) :=
    Real.arctan_strictMono (by gcongr)
  exact Real.strictMonoOn_sin ⟨(Real.neg_pi_div_two_lt_arctan _).le, (Real.arctan_lt_pi_div_two _).le⟩
    ⟨(Real.neg_pi_div_two_lt_arctan _).le, (Real.arctan_lt_pi_div_two _).le⟩ h1

private theorem cosTo_mem (X a : ℝ) (ha : 0 < a) : -1 < cosTo X a ∧ cosTo X a < 1 := by
  unfold cosTo
  have h := norm_pos X a ha
  have hs := Real.sq_sqrt (by positivity : 0 ≤ X ^ 2 + a ^ 2)
  have : |X| < Real.sqrt (X ^ 2 + a ^ 2) := by
    apply Real.lt_sqrt_of_sq_lt
    rw [sq_abs]; have := sq_pos_of_pos ha; linarith
  have := abs_lt.mp this
  constructor
  · rw [lt_div_iff₀ h]; linarith
  · rw [div_lt_one h]; linarith

private theorem cos_arg_eq (X a : ℝ) (ha : 0 < a) : Real.cos (Complex.arg ⟨X, a⟩) = cosTo X a := by
  have hne : (⟨X, a⟩ : ℂ) ≠ 0 := by
    intro h; have := congrArg Complex.im h; simp at this; linarith
  rw [Complex.cos_arg hne]
  unfold cosTo
  rw [Complex.norm_def, Complex.normSq_mk]
  congr 2
  ring

/-- the direction of cosine `t`, as the cotangent of its elevation -/
private theorem le_cosTo_iff (X a t : ℝ) (ha : 0 < a) (ht : t ∈ Set.Ioo (-1:ℝ) 1) :
    (X ≤ t / Real.sqrt (1 - t ^ 2) * a ↔ cosTo X a ≤ t) ∧ (t / Real.sqrt (1 - t ^ 2) * a ≤ X ↔ t ≤ cosTo X a) := by
  have h1 : 0 < 1 - t ^ 2 := by nlinarith [ht.1, ht.2]
  have hs := Real.sqrt_pos.mpr h1
  have hsq := Real.sq_sqrt h1.le
  have e : cosTo (t / Real.sqrt (1 - t ^ 2) * a) a = t := by
    unfold cosTo
    have : (t / Real.sqrt (1 - t ^ 2) * a) ^ 2 + a ^ 2 = (a / Real.sqrt (1 - t ^ 2)) ^ 2 := by
      field_simp
      rw [hsq]; ring
    rw [this, Real.sqrt_sq (by positivity)]
    field_simp
  constructor
  · conv_rhs => rw [← e]
    exact ((cosTo_strictMono a ha).le_iff_le).symm
  · conv_rhs => rw [← e]
    exact ((cosTo_strictMono a ha).le_iff_le).symm

section
variable (θ w h pitch x : ℝ)

/-- cosines of the directions to the right and the left edge of row `k` -/
def cR (k : ℤ) : ℝ := cosTo ((rightEdge θ w h pitch k).1 - x) (rightEdge θ w h pitch k).2
def cL (k : ℤ) : ℝ := cosTo ((leftEdge θ w h pitch k).1 - x) (leftEdge θ w h pitch k).2

variable {θ w h pitch x}

/-- A row hides the directions between its two edges. -/
theorem blocked_iff (hr : 0 < h + w / 2 * Real.sin (θ * (π / 180))) (hl : 0 < h - w / 2 * Real.sin (θ * (π / 180)))
    (t : ℝ) (ht : t ∈ Set.Ioo (-1:ℝ) 1) (k : ℤ) :
    blocked θ w h pitch x t k ↔ min (cR θ w h pitch x k) (cL θ w h pitch x k) ≤ t ∧
      t ≤ max (cR θ w h pitch x k) (cL θ w h pitch x k) := by
  have h1 : 0 < 1 - t ^ 2 := by nlinarith [ht.1, ht.2]
  have hs := Real.sqrt_pos.mpr h1
  set σ := Real.sqrt (1 - t ^ 2)
  have hr' : 0 < (rightEdge θ w h pitch k).2 := hr
  have hl' : 0 < (leftEdge θ w h pitch k).2 := hl
  obtain ⟨r1, r2⟩ := le_cosTo_iff ((rightEdge θ w h pitch k).1 - x) _ t hr' ht
  obtain ⟨l1, l2⟩ := le_cosTo_iff ((leftEdge θ w h pitch k).1 - x) _ t hl' ht
  unfold blocked cR cL
  set R := rightEdge θ w h pitch k
  set L := leftEdge θ w h pitch k
  constructor
  · rintro ⟨r, hr0, s, ⟨hs0, hs1⟩, e1, e2⟩
    have hx : (1 - s) * (R.1 - x - t / σ * R.2) + s * (L.1 - x - t / σ * L.2) = 0 := by
      have : t / σ * (r * σ) = r * t := by field_simp
      rw [e2] at this
      linarith
    constructor
    · rw [min_le_iff, ← r1, ← l1]
      by_contra hcon
      push Not at hcon
      rcases hs0.lt_or_eq with p | p
      · nlinarith [mul_pos p (sub_pos.mpr hcon.2), mul_nonneg (sub_nonneg.mpr hs1) (sub_pos.mpr hcon.1).le]
      · rw [← p] at hx; nlinarith
    · rw [le_max_iff, ← r2, ← l2]
      by_contra hcon
      push Not at hcon
      rcases hs0.lt_or_eq with p | p
      · nlinarith [mul_pos p (sub_pos.mpr hcon.2), mul_nonneg (sub_nonneg.mpr hs1) (sub_pos.mpr hcon.1).le]
      · rw [← p] at hx; nlinarith
  · rintro ⟨a1, a2⟩
    rw [min_le_iff, ← r1, ← l1] at a1
    rw [le_max_iff, ← r2, ← l2] at a2
    -- a point of the segment on the ray
    have hex : ∃ s ∈ Set.Icc (0:ℝ) 1, (1 - s) * (R.1 - x - t / σ * R.2) + s * (L.1 - x - t / σ * L.2) = 0 := by
      set u := R.1 - x - t / σ * R.2 with hu
      set v := L.1 - x - t / σ * L.2 with hv
      have huv : (u ≤ 0 ∧ 0 ≤ v) ∨ (v ≤ 0 ∧ 0 ≤ u) := by
        rcases a1 with b1 | b1 <;> rcases a2 with b2 | b2
        · rcases le_total 0 v with c | c
          · left; constructor <;> linarith
          · right; constructor <;> linarith
        · left; constructor <;> linarith
        · right; constructor <;> linarith
        · rcases le_total 0 u with c | c
          · right; constructor <;> linarith
          · left; constructor <;> linarith
      by_cases hz : u = v
      · refine ⟨0, ⟨le_refl _, zero_le_one⟩, ?_⟩
        rcases huv with ⟨p, q⟩ | ⟨p, q⟩ <;> linarith
      · refine ⟨u / (u - v), ?_, ?_⟩
        · rcases huv with ⟨p, q⟩ | ⟨p, q⟩
          · have hneg : u - v < 0 := lt_of_le_of_ne (by linarith) (sub_ne_zero.mpr hz)
            exact ⟨div_nonneg_of_nonpos p hneg.le, by rw [div_le_one_of_neg hneg]; linarith⟩
          · have hpos : 0 < u - v := lt_of_le_of_ne (by linarith) (Ne.symm (sub_ne_zero.mpr hz))
            exact ⟨div_nonneg q hpos.le, by rw [div_le_one hpos]; linarith⟩
        · have := sub_ne_zero.mpr hz
          field_simp
          ring
    obtain ⟨s, ⟨hs0, hs1⟩, e⟩ := hex
    have hpos : 0 < (1 - s) * R.2 + s * L.2 := by
      rcases hs0.lt_or_eq with p | p
      · have := mul_pos p hl'
        have := mul_nonneg (sub_nonneg.mpr hs1) hr'.le
        linarith
      · rw [← p]; linarith
    refine ⟨((1 - s) * R.2 + s * L.2) / σ, div_pos hpos hs, s, ⟨hs0, hs1⟩, ?_, ?_⟩
    · have : ((1 - s) * R.2 + s * L.2) / σ * t = (1 - s) * (t / σ * R.2) + s * (t / σ * L.2) := by
        field_simp
      rw [this]; linarith
    · exact div_mul_cancel₀ _ hs.ne'

private theorem c_mono (hp : 0 < pitch) (hr : 0 < h + w / 2 * Real.sin (θ * (π / 180)))
    (hl : 0 < h - w / 2 * Real.sin (θ * (π / 180))) :
    StrictMono (cR θ w h pitch x) ∧ StrictMono (cL θ w h pitch x) := by
  constructor
  · intro i j hij
    have : (i : ℝ) * pitch < j * pitch := mul_lt_mul_of_pos_right (by exact_mod_cast hij) hp
    exact cosTo_strictMono _ hr (by unfold rightEdge; dsimp only; linarith)
  · intro i j hij
    have : (i : ℝ) * pitch < j * pitch := mul_lt_mul_of_pos_right (by exact_mod_cast hij) hp
    exact cosTo_strictMono _ hl (by unfold leftEdge; dsimp only; linarith)

end

private theorem term_fin (θ gcr x pitch h : ℝ)
    (hr : 0 < h + gcr * pitch / 2 * Real.sin (θ * (π / 180)))
    (hl : 0 < h - gcr * pitch / 2 * Real.sin (θ * (π / 180))) (k : ℤ) :
    Fl.cos (maximum (Fl.arctan2 (fin h + fin gcr * fin pitch / 2 * sind (fin θ))
        ((fin k - fin x) * fin pitch + fin gcr * fin pitch / 2 * cosd (fin θ)))
      (Fl.arctan2 (fin h - fin gcr * fin pitch / 2 * sind (fin θ))
        ((fin k - fin x) * fin pitch - fin gcr * fin pitch / 2 * cosd (fin θ)))) =
      fin (min (cR θ (gcr * pitch) h pitch (x * pitch) k) (cL θ (gcr * pitch) h pitch (x * pitch) k)) ∧
    Fl.cos (minimum (Fl.arctan2 (fin h + fin gcr * fin pitch / 2 * sind (fin θ))
        ((fin k - fin x) * fin pitch + fin gcr * fin pitch / 2 * cosd (fin θ)))
      (Fl.arctan2 (fin h - fin gcr * fin pitch / 2 * sind (fin θ))
        ((fin k - fin x) * fin pitch - fin gcr * fin pitch / 2 * cosd (fin θ)))) =
      fin (max (cR θ (gcr * pitch) h pitch (x * pitch) k) (cL θ (gcr * pitch) h pitch (x * pitch) k)) := by
  rw [fin_mul, ofNat_eq, fin_div (by norm_num), sind_fin, cosd_fin]
  simp only [fin_mul, fin_add, fin_sub, arctan2_fin, maximum_fin, minimum_fin, Fl.cos_fin, fin_inj]
  have eR : cR θ (gcr * pitch) h pitch (x * pitch) k =
      Real.cos (Complex.arg ⟨(k - x) * pitch + gcr * pitch / 2 * Real.cos (θ * (π / 180)),
        h + gcr * pitch / 2 * Real.sin (θ * (π / 180))⟩) := by
    rw [cos_arg_eq _ _ hr]
    unfold cR rightEdge
    dsimp only
    congr 1; ring
  have eL : cL θ (gcr * pitch) h pitch (x * pitch) k =
      Real.cos (Complex.arg ⟨(k - x) * pitch - gcr * pitch / 2 * Real.cos (θ * (π / 180)),
        h - gcr * pitch / 2 * Real.sin (θ * (π / 180))⟩) := by
    rw [cos_arg_eq _ _ hl]
    unfold cL leftEdge
    dsimp only
    congr 1; ring
  rw [eR, eL]
  have mem : ∀ X a : ℝ, 0 < a → Complex.arg ⟨X, a⟩ ∈ Set.Icc 0 π := fun X a ha =>
    ⟨Complex.arg_nonneg_iff.mpr ha.le, Complex.arg_le_pi _⟩
  have m1 := mem ((k - x) * pitch + gcr * pitch / 2 * Real.cos (θ * (π / 180))) _ hr
  have m2 := mem ((k - x) * pitch - gcr * pitch / 2 * Real.cos (θ * (π / 180))) _ hl
  exact ⟨Real.strictAntiOn_cos.antitoneOn.map_max m1 m2, Real.strictAntiOn_cos.antitoneOn.map_min m1 m2⟩

/-- **C128a.** For rows entirely above the ground, the result is half the length of the cosines of the directions
between row `-max_rows` and row `max_rows + 1` that meet none of these rows. -/
theorem ground_sky_exact (θ gcr x pitch h : ℝ) (n : ℤ) (hp : 0 < pitch) (hn : 0 ≤ n)
    (hr : 0 < h + gcr * pitch / 2 * Real.sin (θ * (π / 180)))
    (hl : 0 < h - gcr * pitch / 2 * Real.sin (θ * (π / 180))) :
    vfGroundSky2d (fin θ) (fin gcr) (fin x) (fin pitch) (fin h) n =
      fin ((volume (visible θ (gcr * pitch) h pitch (x * pitch) n)).toReal / 2) := by
  obtain ⟨mR, mL⟩ := c_mono (x := x * pitch) hp hr hl
  set g := fun k : ℤ => min (cR θ (gcr * pitch) h pitch (x * pitch) k) (cL θ (gcr * pitch) h pitch (x * pitch) k) with hg
  set l := fun k : ℤ => max (cR θ (gcr * pitch) h pitch (x * pitch) k) (cL θ (gcr * pitch) h pitch (x * pitch) k) with hldef
  have gm : Monotone g := fun i j hij => min_le_min (mR.monotone hij) (mL.monotone hij)
  have lm : Monotone l := fun i j hij => max_le_max (mR.monotone hij) (mL.monotone hij)
  have gl : ∀ k, g k ≤ l k := fun k => min_le_max
  have hmem : ∀ k, -1 < g k ∧ l k < 1 := fun k =>
    ⟨lt_min (cosTo_mem _ _ hr).1 (cosTo_mem _ _ hl).1, max_lt (cosTo_mem _ _ hr).2 (cosTo_mem _ _ hl).2⟩
  have hval : vfGroundSky2d (fin θ) (fin gcr) (fin x) (fin pitch) (fin h) n =
      fin (((arange (-n) (n + 1)).map fun k : ℤ => max (g (k + 1) - l k) 0).sum / 2) := by
    unfold vfGroundSky2d
    dsimp only
    have hm : ((arange (-n) (n + 1)).map fun k : ℤ => maximum (Fl.cos (maximum
          (Fl.arctan2 (fin h + fin gcr * fin pitch / 2 * sind (fin θ))
            ((fin ((k + 1 : ℤ) : ℝ) - fin x) * fin pitch + fin gcr * fin pitch / 2 * cosd (fin θ)))
          (Fl.arctan2 (fin h - fin gcr * fin pitch / 2 * sind (fin θ))
            ((fin ((k + 1 : ℤ) : ℝ) - fin x) * fin pitch - fin gcr * fin pitch / 2 * cosd (fin θ)))) -
        Fl.cos (minimum (Fl.arctan2 (fin h + fin gcr * fin pitch / 2 * sind (fin θ))
            ((fin k - fin x) * fin pitch + fin gcr * fin pitch / 2 * cosd (fin θ)))
          (Fl.arctan2 (fin h - fin gcr * fin pitch / 2 * sind (fin θ))
            ((fin k - fin x) * fin pitch - fin gcr * fin pitch / 2 * cosd (fin θ))))) 0) =
        ((arange (-n) (n + 1)).map fun k : ℤ => max (g (k + 1) - l k) 0).map fin := by
      rw [List.map_map]
      refine List.map_congr_left fun k _ => ?_
      rw [(term_fin θ gcr x pitch h hr hl (k + 1)).1, (term_fin θ gcr x pitch h hr hl k).2, fin_sub, zero_eq, maximum_fin]
      rfl
    rw [hm, sum_fin, ofNat_eq, fin_div (by norm_num)]
  rw [hval, fin_inj]
  congr 1
  -- the visible directions are the gaps
  have hb : ∀ t ∈ Set.Ioo (-1:ℝ) 1, ∀ k, blocked θ (gcr * pitch) h pitch (x * pitch) t k ↔ g k ≤ t ∧ t ≤ l k :=
    fun t ht k => blocked_iff hr hl t ht k
  have hV : visible θ (gcr * pitch) h pitch (x * pitch) n =
      ⋃ k ∈ (arange (-n) (n + 1)).toFinset, Set.Ioo (l k) (g (k + 1)) := by
    ext t
    simp only [visible, Set.mem_setOf_eq, Set.mem_iUnion, List.mem_toFinset, mem_arange, exists_prop]
    constructor
    · rintro ⟨ht, ⟨t1, ht1, hb1⟩, ⟨t2, ht2, hb2⟩, hno⟩
      have hno' : ∀ k : ℤ, -n ≤ k → k ≤ n + 1 → g k ≤ t → l k < t := by
        intro k h1 h2 h3
        by_contra h4
        exact hno k h1 h2 ((hb t ht k).mpr ⟨h3, not_lt.mp h4⟩)
      have s1 : l (-n) < t := by
        refine hno' (-n) le_rfl (by omega) ?_
        have := ((hb t1 ⟨ht1.1, lt_of_le_of_lt ht1.2 ht.2⟩ (-n)).mp hb1).1
        linarith [ht1.2]
      have s2 : t < g (n + 1) := by
        by_contra h4
        have h5 := hno' (n + 1) (by omega) le_rfl (not_lt.mp h4)
        have := ((hb t2 ⟨lt_of_lt_of_le ht.1 ht2.1, ht2.2⟩ (n + 1)).mp hb2).2
        linarith [ht2.1]
      -- last row to the left of `t`
      have key : ∀ j : ℕ, (j : ℤ) ≤ 2 * n + 1 → l (-n + j) < t →
          ∃ k : ℤ, (-n ≤ k ∧ k < n + 1) ∧ t ∈ Set.Ioo (l k) (g (k + 1)) := by
        intro j
        induction hm : (2 * n + 1 - j).toNat generalizing j with
        | zero =>
          intro hj hlt
          have : -n + (j : ℤ) = n + 1 := by omega
          rw [this] at hlt
          linarith [gl (n + 1)]
        | succ m ih =>
          intro hj hlt
          by_cases hc : t < g (-n + j + 1)
          · exact ⟨-n + j, ⟨by omega, by omega⟩, hlt, hc⟩
          · have h2 := hno' (-n + j + 1) (by omega) (by omega) (not_lt.mp hc)
            exact ih (j + 1) (by push_cast; omega) (by push_cast; omega)
              (by push_cast; rw [← add_assoc]; exact h2)
      exact key 0 (by push_cast; omega) (by simpa using s1)
    · rintro ⟨k, ⟨hk1, hk2⟩, ht1, ht2⟩
      have htm : t ∈ Set.Ioo (-1:ℝ) 1 :=
        ⟨lt_trans (lt_of_lt_of_le (hmem k).1 (gl k)) ht1, lt_trans ht2 (lt_of_le_of_lt (gl _) (hmem (k + 1)).2)⟩
      refine ⟨htm, ⟨l (-n), ⟨lt_of_lt_of_le (hmem _).1 (gl _), ?_⟩, ?_⟩, ⟨g (n + 1), ⟨?_, lt_of_le_of_lt (gl _) (hmem _).2⟩, ?_⟩, ?_⟩
      · exact (lm hk1).trans ht1.le
      · exact (hb _ ⟨lt_of_lt_of_le (hmem _).1 (gl _), (hmem _).2⟩ _).mpr ⟨gl _, le_rfl⟩
      · exact ht2.le.trans (gm (by omega))
      · exact (hb _ ⟨(hmem _).1, lt_of_le_of_lt (gl _) (hmem _).2⟩ _).mpr ⟨le_rfl, gl _⟩
      · intro j h1 h2 hbl
        obtain ⟨h3, h4⟩ := (hb t htm j).mp hbl
        rcases le_or_gt j k with hjk | hjk
        · linarith [lm hjk]
        · have : k + 1 ≤ j := by omega
          linarith [gm this]
  have hdis : ((arange (-n) (n + 1)).toFinset : Set ℤ).Pairwise
      (Function.onFun (AEDisjoint volume) fun k => Set.Ioo (l k) (g (k + 1))) := by
    intro i _ j _ hij
    have key : ∀ i j : ℤ, i < j → Disjoint (Set.Ioo (l i) (g (i + 1))) (Set.Ioo (l j) (g (j + 1))) := by
      intro i j hlt
      rw [Set.disjoint_left]
      rintro t ⟨-, h1⟩ ⟨h2, -⟩
      have : i + 1 ≤ j := by omega
      linarith [gl (i + 1), lm this]
    rcases lt_or_gt_of_ne hij with h | h
    · exact (key i j h).aedisjoint
    · exact (key j i h).symm.aedisjoint
  have hvol : volume (visible θ (gcr * pitch) h pitch (x * pitch) n) =
      ENNReal.ofReal (((arange (-n) (n + 1)).map fun k : ℤ => max (g (k + 1) - l k) 0).sum) := by
    rw [hV, measure_biUnion_finset₀ hdis fun k _ => measurableSet_Ioo.nullMeasurableSet,
      sum_volume _ _ (fun k => le_max_right _ _), ← List.sum_toFinset _ (nodup_arange _ _)]
    refine Finset.sum_congr rfl fun k _ => ?_
    rw [Real.volume_Ioo]
    by_cases h : 0 ≤ g (k + 1) - l k
    · rw [max_eq_left h]
    · push Not at h
      rw [max_eq_right h.le, ENNReal.ofReal_of_nonpos h.le, ENNReal.ofReal_zero]
  rw [hvol, ENNReal.toReal_ofReal]
  refine List.sum_nonneg ?_
  intro y hy
  rw [List.mem_map] at hy
  obtain ⟨k, -, rfl⟩ := hy
  exact le_max_right _ _

/-- **C128b.** It lies in [0, 1]. -/
theorem ground_sky_range (θ gcr x pitch h : ℝ) (n : ℤ) (hp : 0 < pitch) (hn : 0 ≤ n)
    (hr : 0 < h + gcr * pitch / 2 * Real.sin (θ * (π / 180)))
    (hl : 0 < h - gcr * pitch / 2 * Real.sin (θ * (π / 180))) :
    ∃ v : ℝ, vfGroundSky2d (fin θ) (fin gcr) (fin x) (fin pitch) (fin h) n = fin v ∧ 0 ≤ v ∧ v ≤ 1 := by
  refine ⟨_, ground_sky_exact θ gcr x pitch h n hp hn hr hl, by positivity, ?_⟩
  have hsub : visible θ (gcr * pitch) h pitch (x * pitch) n ⊆ Set.Ioo (-1) 1 := fun t ht => ht.1
  have : (volume (visible θ (gcr * pitch) h pitch (x * pitch) n)).toReal ≤ 2 := by
    refine ENNReal.toReal_le_of_le_ofReal (by norm_num) ((measure_mono hsub).trans ?_)
    rw [Real.volume_Ioo]; norm_num
  linarith

/-- Rows at 30°, 1.5 m above ground, 3 m apart, covering half the ground: the hypotheses hold. -/
example : ∃ v : ℝ, vfGroundSky2d 30 0.5 0.5 3 1.5 = fin v ∧ 0 ≤ v ∧ v ≤ 1 := by
  have h30 : (30:ℝ) * (π / 180) = π / 6 := by ring
  obtain ⟨v, h1, h2⟩ := ground_sky_range 30 (1/2) (1/2) 3 (3/2) 10 (by norm_num) (by norm_num)
    (by rw [h30, Real.sin_pi_div_six]; norm_num) (by rw [h30, Real.sin_pi_div_six]; norm_num)
  refine ⟨v, Eq.trans ?_ h1, h2⟩
  have e1 : (0.5 : Fl) = fin (1/2) := by rw [Fl.ofScientific_eq]; norm_num
  have e2 : (1.5 : Fl) = fin (3/2) := by rw [Fl.ofScientific_eq]; norm_num
  rw [e1, e2]; rfl

end Pvlib.Props.BifacialGround
end
