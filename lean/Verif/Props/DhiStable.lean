import Verif.Props.ErbsShape
import Mathlib.Analysis.Calculus.Deriv.Inv
import Mathlib.Analysis.SpecialFunctions.ExpDeriv

/-! # Property C222: an error of the measured irradiance is amplified a few times at most -/

noncomputable section
open scoped Classical
namespace Pvlib.Props.DhiStable
open Fl Pvlib.Irradiance Pvlib.Spec Pvlib.Props.Decomposition Pvlib.Props.ErbsShape

/-! ### Specification -/

/-- Two decompositions of global irradiance `g` and `g'` with the sun at zenith angle `z`: the diffuse components differ by at most `A` times the difference of `g` and `g'`
plus the part `J` of the smaller of them; so do the direct components, on the horizontal plane. -/
def Steady (A J g g' z : ℝ) (r r' : Decomp) : Prop :=
  ∃ d d' n n' : ℝ, r.dhi = fin d ∧ r'.dhi = fin d' ∧ r.dni = fin n ∧ r'.dni = fin n' ∧
    |d - d'| ≤ A * |g - g'| + J * min g g' ∧ |n - n'| * cosDeg z ≤ A * |g - g'| + J * min g g'

/-! ### Proofs -/

/-- A fraction that changes by at most `L` times the change of its argument, plus `J`. -/
private def Lip (df : ℝ → ℝ) (L J : ℝ) : Prop :=
  (∀ k, 0 ≤ k → k ≤ 1 → 0 ≤ df k ∧ df k ≤ 1) ∧ ∀ k k', 0 ≤ k → k ≤ k' → k' ≤ 1 → |df k - df k'| ≤ L * (k' - k) + J

private theorem finish_both {g z mz d : ℝ} (kt : Fl) (hg : 0 ≤ g) (hz : z ≤ mz) (hc : 0 < cosDeg z) (hd : d ≤ 1) :
    (finishDf (fin g) (fin z) (fin mz) kt (fin d)).dni = fin ((1 - d) * g / cosDeg z) ∧ (finishDf (fin g) (fin z) (fin mz) kt (fin d)).dhi = fin (d * g) := by
  have e : (fin g - fin d * fin g) / Tools.cosd (fin z) = fin ((1 - d) * g / cosDeg z) := by
    rw [Tools.cosd_fin, fin_mul, fin_sub, fin_div hc.ne']
    congr 2
    ring
  have hn : ¬ (fin mz < fin z ∨ fin g < 0 ∨ (fin g - fin d * fin g) / Tools.cosd (fin z) < 0) := by
    rw [e, zero_eq, fin_lt, fin_lt, fin_lt, not_or, not_or]
    exact ⟨not_lt.mpr hz, not_lt.mpr hg, not_lt.mpr (div_nonneg (mul_nonneg (by linarith) hg) hc.le)⟩
  simp only [finishDf]
  rw [npwhere_neg hn, npwhere_neg hn, e, fin_mul]
  exact ⟨rfl, rfl⟩

private theorem product {L J x y u v : ℝ} (hxy : x ≤ y) (hx : 0 ≤ x) (hL : 0 ≤ L) (hv : 0 ≤ v ∧ v ≤ 1) (h : x * |u - v| ≤ L * (y - x) + J * x) :
    |u * x - v * y| ≤ (1 + L) * |x - y| + J * min x y ∧ |(1 - u) * x - (1 - v) * y| ≤ (1 + L) * |x - y| + J * min x y := by
  rw [min_eq_left hxy, abs_sub_comm x y, abs_of_nonneg (sub_nonneg.mpr hxy)]
  have h1 : |x * (u - v)| ≤ L * (y - x) + J * x := by rwa [abs_mul, abs_of_nonneg hx]
  rw [abs_le] at h1
  have a1 : 0 ≤ v * (y - x) := mul_nonneg hv.1 (by linarith)
  have a2 : v * (y - x) ≤ y - x := mul_le_of_le_one_left (by linarith) hv.2
  constructor <;> rw [abs_le] <;> constructor <;> nlinarith [h1.1, h1.2]

private theorem steady_of {df : ℝ → ℝ} {L J : ℝ} (hL : 0 ≤ L) (hJ : 0 ≤ J) (h : Lip df L J) {g g' z e mc mz : ℝ} (h0 : 0 ≤ g) (hgg : g ≤ g') (he : 0 < e)
    (hmc : 0 < mc) (hc : z ≤ mz → 0 < cosDeg z) (f : Fl → Fl) (hf : ∀ k : ℝ, 0 ≤ k → k ≤ 1 → f (fin k) = fin (df k)) :
    Steady (1 + L) J g g' z (finishDf (fin g) (fin z) (fin mz) (clearnessIndex (fin g) (fin z) (fin e) (fin mc) 1) (f (clearnessIndex (fin g) (fin z) (fin e) (fin mc) 1)))
      (finishDf (fin g') (fin z) (fin mz) (clearnessIndex (fin g') (fin z) (fin e) (fin mc) 1) (f (clearnessIndex (fin g') (fin z) (fin e) (fin mc) 1))) := by
  have h0' : 0 ≤ g' := h0.trans hgg
  by_cases hz : z ≤ mz
  swap
  · have hb : fin mz < fin z := by rw [fin_lt]; exact not_le.mp hz
    have hJg : 0 ≤ J * min g g' := mul_nonneg hJ (le_min h0 h0')
    have hA : 0 ≤ L * |g - g'| := mul_nonneg hL (abs_nonneg _)
    refine ⟨g, g', 0, 0, ?_, ?_, ?_, ?_, by linarith, by rw [sub_self, abs_zero, zero_mul]; have := abs_nonneg (g - g'); linarith⟩ <;>
    · simp only [finishDf]
      rw [npwhere_pos (Or.inl hb)]
      try rfl
  have hc := hc hz
  set D := e * max (cosDeg z) mc with hD
  have hDp : 0 < D := mul_pos he (hmc.trans_le (le_max_right _ _))
  have hk : ∀ x : ℝ, 0 ≤ x → clearnessIndex (fin x) (fin z) (fin e) (fin mc) 1 = fin (min (x / D) 1) := by
    intro x hx
    rw [one_eq, clearnessIndex_value x z e mc 1 he.ne' hmc, ← hD, max_eq_left (div_nonneg hx hDp.le)]
  have hr : ∀ x : ℝ, 0 ≤ x → 0 ≤ min (x / D) 1 ∧ min (x / D) 1 ≤ 1 := fun x hx => ⟨le_min (div_nonneg hx hDp.le) zero_le_one, min_le_right _ _⟩
  obtain ⟨hl, hu⟩ := hr g h0
  obtain ⟨hl', hu'⟩ := hr g' h0'
  have hle : min (g / D) 1 ≤ min (g' / D) 1 := min_le_min_right _ (div_le_div_of_nonneg_right hgg hDp.le)
  have key := h.2 _ _ hl hle hu'
  have key2 : g * |df (min (g / D) 1) - df (min (g' / D) 1)| ≤ L * (g' - g) + J * g := by
    by_cases c2 : g ≤ D
    · have a1 : g * (min (g' / D) 1 - min (g / D) 1) ≤ g' - g := by
        have e1 : min (g / D) 1 = g / D := min_eq_left ((div_le_one hDp).mpr c2)
        have e2 : min (g' / D) 1 ≤ g' / D := min_le_left _ _
        have e3 : g * (min (g' / D) 1 - g / D) ≤ D * (g' / D - g / D) :=
          mul_le_mul c2 (by linarith) (by rw [← e1]; linarith) hDp.le
        rw [e1]
        refine e3.trans (le_of_eq ?_)
        field_simp
      have a2 := mul_le_mul_of_nonneg_left key h0
      have a3 := mul_le_mul_of_nonneg_left a1 hL
      linarith
    · push Not at c2
      rw [min_eq_right ((one_le_div hDp).mpr c2.le), min_eq_right ((one_le_div hDp).mpr (c2.le.trans hgg)), sub_self, abs_zero, mul_zero]
      have := mul_nonneg hL (sub_nonneg.mpr hgg)
      have := mul_nonneg hJ h0
      linarith
  obtain ⟨p1, p2⟩ := product hgg h0 hL (h.1 _ hl' hu') key2
  have v := finish_both (kt := fin (min (g / D) 1)) h0 hz hc (h.1 _ hl hu).2
  have v' := finish_both (kt := fin (min (g' / D) 1)) h0' hz hc (h.1 _ hl' hu').2
  rw [hk g h0, hk g' h0', hf _ hl hu, hf _ hl' hu']
  refine ⟨_, _, _, _, v.2, v'.2, v.1, v'.1, p1, ?_⟩
  rw [← sub_div, abs_div, abs_of_pos hc, div_mul_cancel₀ _ hc.ne']
  exact p2

private theorem mono_deriv {F F' : ℝ → ℝ} {l u : ℝ} (h : ∀ x, HasDerivAt F (F' x) x) (hp : ∀ x, l ≤ x → x ≤ u → 0 ≤ F' x) {x y : ℝ} (hx : l ≤ x)
    (hxy : x ≤ y) (hy : y ≤ u) : F x ≤ F y := by
  have : MonotoneOn F (Set.Icc l u) := by
    refine monotoneOn_of_deriv_nonneg (convex_Icc l u) (fun x _ => (h x).continuousAt.continuousWithinAt)
      (fun x _ => (h x).differentiableAt.differentiableWithinAt) ?_
    intro x hx
    rw [interior_Icc] at hx
    rw [(h x).deriv]
    exact hp x hx.1.le hx.2.le
  exact this ⟨hx, hxy.trans hy⟩ ⟨hx.trans hxy, hy⟩ hxy

/-- A function with a derivative between `-L` and `L`. -/
private theorem lip_deriv {F F' : ℝ → ℝ} {l u L : ℝ} (h : ∀ x, HasDerivAt F (F' x) x) (hp : ∀ x, l ≤ x → x ≤ u → -L ≤ F' x ∧ F' x ≤ L) {x y : ℝ} (hx : l ≤ x)
    (hxy : x ≤ y) (hy : y ≤ u) : |F x - F y| ≤ L * (y - x) := by
  have a := mono_deriv (F := fun x => L * x - F x) (F' := fun x => L - F' x) (fun x => (((hasDerivAt_id x).const_mul L).sub (h x)).congr_deriv (by ring))
    (fun x h1 h2 => by linarith [(hp x h1 h2).2]) hx hxy hy
  have b := mono_deriv (F := fun x => L * x + F x) (F' := fun x => L + F' x) (fun x => (((hasDerivAt_id x).const_mul L).add (h x)).congr_deriv (by ring))
    (fun x h1 h2 => by linarith [(hp x h1 h2).1]) hx hxy hy
  rw [abs_le]
  constructor <;> linarith

/-- Three pieces that nearly meet. -/
private theorem pieces {p q r : ℝ → ℝ} {a b L J1 J2 : ℝ} (hJ1 : 0 ≤ J1) (hJ2 : 0 ≤ J2) (hab : a ≤ b)
    (hp : ∀ x y, 0 ≤ x → x ≤ y → y ≤ a → |p x - p y| ≤ L * (y - x)) (hq : ∀ x y, a ≤ x → x ≤ y → y ≤ b → |q x - q y| ≤ L * (y - x))
    (hr : ∀ x y, b ≤ x → x ≤ y → |r x - r y| ≤ L * (y - x)) (h1 : |p a - q a| ≤ J1) (h2 : |q b - r b| ≤ J2) (f : ℝ → ℝ)
    (hf : ∀ x, (x ≤ a ∧ f x = p x) ∨ (a ≤ x ∧ x ≤ b ∧ f x = q x) ∨ (b ≤ x ∧ f x = r x)) {x y : ℝ} (h0 : 0 ≤ x) (hxy : x ≤ y) :
    |f x - f y| ≤ L * (y - x) + (J1 + J2) := by
  rw [abs_le] at h1 h2
  have P := hp; have Q := hq; have R := hr
  simp only [abs_le] at P Q R
  rw [abs_le]
  rcases hf x with ⟨x1, e1⟩ | ⟨x1, x2, e1⟩ | ⟨x1, e1⟩ <;> rcases hf y with ⟨y1, e2⟩ | ⟨y1, y2, e2⟩ | ⟨y1, e2⟩ <;> rw [e1, e2]
  · have := P x y h0 hxy y1; constructor <;> linarith
  · have := P x a h0 x1 le_rfl; have := Q a y le_rfl y1 y2; constructor <;> linarith
  · have := P x a h0 x1 le_rfl; have := Q a b le_rfl hab le_rfl; have := R b y le_rfl y1; constructor <;> linarith
  · obtain rfl : x = y := by linarith
    obtain rfl : x = a := by linarith
    constructor <;> linarith
  · have := Q x y x1 hxy y2; constructor <;> linarith
  · have := Q x b x1 x2 le_rfl; have := R b y le_rfl y1; constructor <;> linarith
  · obtain rfl : x = y := by linarith
    obtain rfl : x = a := by linarith
    obtain rfl : x = b := by linarith
    constructor <;> linarith
  · obtain rfl : x = y := by linarith
    obtain rfl : x = b := by linarith
    constructor <;> linarith
  · have := R x y x1 hxy; constructor <;> linarith

private theorem ePoly_slope {x y : ℝ} (hx : 0.22 ≤ x) (hxy : x ≤ y) (hy : y ≤ 0.8) : |ePoly x - ePoly y| ≤ 2.25 * (y - x) := by
  refine lip_deriv (F' := fun k => -0.1604 + 8.776 * k - 49.914 * k ^ 2 + 49.344 * k ^ 3) ?_ ?_ hx hxy hy
  · intro k
    have e : ePoly = fun k => 0.9511 - 0.1604 * k + 4.388 * k ^ 2 - 16.638 * k ^ 3 + 12.336 * k ^ 4 := rfl
    rw [e]
    have d := (((((hasDerivAt_const k (0.9511 : ℝ)).sub ((hasDerivAt_id k).const_mul 0.1604)).add ((hasDerivAt_pow 2 k).const_mul 4.388)).sub
      ((hasDerivAt_pow 3 k).const_mul 16.638)).add ((hasDerivAt_pow 4 k).const_mul 12.336))
    refine d.congr_deriv ?_
    norm_num
    ring
  · intro k h0 h1
    norm_num at h0 h1 ⊢
    constructor
    · nlinarith [mul_nonneg (show (0 : ℝ) ≤ k by linarith) (sq_nonneg (k - 0.57)), sq_nonneg (k - 0.57)]
    · nlinarith [mul_nonneg (sub_nonneg.mpr h0) (sub_nonneg.mpr h1), mul_nonneg (mul_nonneg (sub_nonneg.mpr h0) (sub_nonneg.mpr h1)) (show (0 : ℝ) ≤ k by linarith)]

private theorem dPoly_slope {x y : ℝ} (hx : 0.216 ≤ x) (hxy : x ≤ y) (hy : y ≤ 0.792) : |dPoly x - dPoly y| ≤ 2.25 * (y - x) := by
  refine lip_deriv (F' := dSlope) ?_ ?_ hx hxy hy
  · intro k
    have e : dPoly = fun k => 0.946296633571001 - 0.11390583806313881 * k + 4.246926715218317 * k ^ 2 - 16.470508424697307 * k ^ 3 + 12.26911439571261 * k ^ 4 := by
      funext k; unfold dPoly; norm_num
    rw [e]
    have d := (((((hasDerivAt_const k (0.946296633571001 : ℝ)).sub ((hasDerivAt_id k).const_mul 0.11390583806313881)).add ((hasDerivAt_pow 2 k).const_mul 4.246926715218317)).sub
      ((hasDerivAt_pow 3 k).const_mul 16.470508424697307)).add ((hasDerivAt_pow 4 k).const_mul 12.26911439571261))
    refine d.congr_deriv ?_
    unfold dSlope
    norm_num
    ring
  · intro k h0 h1
    unfold dSlope
    norm_num at h0 h1 ⊢
    constructor
    · nlinarith [mul_nonneg (show (0 : ℝ) ≤ k by linarith) (sq_nonneg (k - 0.57)), sq_nonneg (k - 0.57)]
    · nlinarith [mul_nonneg (sub_nonneg.mpr h0) (sub_nonneg.mpr h1), mul_nonneg (mul_nonneg (sub_nonneg.mpr h0) (sub_nonneg.mpr h1)) (show (0 : ℝ) ≤ k by linarith)]

private theorem lin_slope {c d L x y : ℝ} (hc : 0 ≤ c) (hL : c ≤ L) (hxy : x ≤ y) : |(d - c * x) - (d - c * y)| ≤ L * (y - x) := by
  rw [show (d - c * x) - (d - c * y) = c * (y - x) by ring, abs_of_nonneg (mul_nonneg hc (by linarith))]
  exact mul_le_mul_of_nonneg_right hL (by linarith)

private theorem const_slope {d L x y : ℝ} (hL : 0 ≤ L) (hxy : x ≤ y) : |d - d| ≤ L * (y - x) := by
  rw [sub_self, abs_zero]; exact mul_nonneg hL (by linarith)

private theorem range_of {f : Fl → Fl} {df : ℝ → ℝ} (hf : ∀ k, f (fin k) = fin (df k)) (h : ∀ k : ℝ, 0 ≤ k → k ≤ 1 → ∃ d : ℝ, f (fin k) = fin d ∧ 0 ≤ d ∧ d ≤ 1) (k : ℝ)
    (h0 : 0 ≤ k) (h1 : k ≤ 1) : 0 ≤ df k ∧ df k ≤ 1 := by
  obtain ⟨d, e, r⟩ := h k h0 h1
  rw [hf] at e
  rw [Fl.fin.inj e]; exact r

private theorem erbs_lip : Lip (fun k => if 0.8 < k then 0.165 else if 0.22 < k then ePoly k else 1 - 0.09 * k) 2.25 0.0006 := by
  refine ⟨range_of erbsDf_real ?_, fun x y h0 hxy h1 => ?_⟩
  · intro k h0 h1; exact erbsDf_range k h0 h1
  · refine (pieces (p := fun k => 1 - 0.09 * k) (q := ePoly) (r := fun _ => 0.165) (a := 0.22) (b := 0.8) (L := 2.25) (J1 := 0.0003) (J2 := 0.0003) (by norm_num) (by norm_num)
      (by norm_num) (fun x y _ h _ => lin_slope (by norm_num) (by norm_num) h) (fun x y a b c => ePoly_slope a b c) (fun x y _ h => const_slope (by norm_num) h)
      (by unfold ePoly; norm_num [abs_le]) (by unfold ePoly; norm_num [abs_le]) (fun k => if 0.8 < k then 0.165 else if 0.22 < k then ePoly k else 1 - 0.09 * k) ?_ h0 hxy).trans (show _ ≤ 2.25 * (y - x) + 0.0006 by norm_num)
    intro x
    split_ifs with c1 c2
    · exact Or.inr (Or.inr ⟨c1.le, rfl⟩)
    · exact Or.inr (Or.inl ⟨c2.le, not_lt.mp c1, rfl⟩)
    · exact Or.inl ⟨not_lt.mp c2, rfl⟩

private theorem driesse_lip : Lip (fun k => if 0.792 < k then 0.165 else if 0.216 < k then dPoly k else 1 - 0.09 * k) 2.25 4e-14 := by
  refine ⟨range_of driesseDf_real ?_, fun x y h0 hxy h1 => ?_⟩
  · intro k h0 h1; exact erbsDriesseDf_range k h0 h1
  · refine (pieces (p := fun k => 1 - 0.09 * k) (q := dPoly) (r := fun _ => 0.165) (a := 0.216) (b := 0.792) (L := 2.25) (J1 := 2e-14) (J2 := 2e-14) (by norm_num) (by norm_num)
      (by norm_num) (fun x y _ h _ => lin_slope (by norm_num) (by norm_num) h) (fun x y a b c => dPoly_slope a b c) (fun x y _ h => const_slope (by norm_num) h)
      (by unfold dPoly; norm_num [abs_le]) (by unfold dPoly; norm_num [abs_le]) (fun k => if 0.792 < k then 0.165 else if 0.216 < k then dPoly k else 1 - 0.09 * k) ?_ h0 hxy).trans (show _ ≤ 2.25 * (y - x) + 4e-14 by norm_num)
    intro x
    split_ifs with c1 c2
    · exact Or.inr (Or.inr ⟨c1.le, rfl⟩)
    · exact Or.inr (Or.inl ⟨c2.le, not_lt.mp c1, rfl⟩)
    · exact Or.inl ⟨not_lt.mp c2, rfl⟩

private theorem orgill_lip : Lip (fun k => if 0.75 < k then 0.177 else if 0.35 ≤ k then 1.557 - 1.84 * k else 1 - 0.249 * k) 1.84 0.00015 := by
  refine ⟨range_of orgillDf_real ?_, fun x y h0 hxy h1 => ?_⟩
  · intro k h0 h1; exact orgillHollandsDf_range k h0 h1
  · refine (pieces (p := fun k => 1 - 0.249 * k) (q := fun k => 1.557 - 1.84 * k) (r := fun _ => 0.177) (a := 0.35) (b := 0.75) (L := 1.84) (J1 := 0.00015) (J2 := 0) (by norm_num)
      (by norm_num) (by norm_num) (fun x y _ h _ => lin_slope (by norm_num) (by norm_num) h) (fun x y _ h _ => lin_slope (by norm_num) (by norm_num) h)
      (fun x y _ h => const_slope (by norm_num) h) (by norm_num [abs_le]) (by norm_num [abs_le]) (fun k => if 0.75 < k then 0.177 else if 0.35 ≤ k then 1.557 - 1.84 * k else 1 - 0.249 * k) ?_ h0 hxy).trans (show _ ≤ 1.84 * (y - x) + 0.00015 by norm_num)
    intro x
    split_ifs with c1 c2
    · exact Or.inr (Or.inr ⟨c1.le, rfl⟩)
    · exact Or.inr (Or.inl ⟨c2, not_lt.mp c1, rfl⟩)
    · exact Or.inl ⟨(not_le.mp c2).le, rfl⟩

private theorem boland_lip {a b : ℝ} (ha : 0 ≤ a) : Lip (fun k => 1 / (1 + Real.exp (a * (k - b)))) (a / 4) 0 := by
  constructor
  · intro k _ _
    have := Real.exp_pos (a * (k - b))
    exact ⟨by positivity, (div_le_one (by positivity)).mpr (by linarith)⟩
  · intro x y _ hxy _
    have d : ∀ k : ℝ, HasDerivAt (fun k => 1 / (1 + Real.exp (a * (k - b)))) (-(a * Real.exp (a * (k - b))) / (1 + Real.exp (a * (k - b))) ^ 2) k := by
      intro k
      have p := Real.exp_pos (a * (k - b))
      have d1 : HasDerivAt (fun k => 1 + Real.exp (a * (k - b))) (a * Real.exp (a * (k - b))) k :=
        (((((hasDerivAt_id k).sub_const b).const_mul a).exp).const_add 1).congr_deriv (by simp only [id]; ring)
      have := d1.fun_inv (by positivity)
      simpa only [one_div] using this
    rw [add_zero]
    refine lip_deriv d (l := x) (u := y) ?_ le_rfl hxy le_rfl
    intro k _ _
    have p := Real.exp_pos (a * (k - b))
    set t := Real.exp (a * (k - b))
    have : a * t / (1 + t) ^ 2 ≤ a / 4 := by
      rw [div_le_div_iff₀ (by positivity) (by norm_num)]
      nlinarith [mul_nonneg ha (sq_nonneg (1 - t))]
    have h0 : 0 ≤ a * t / (1 + t) ^ 2 := by positivity
    rw [neg_div]
    constructor <;> linarith

section
variable {g g' z doy mc mz : ℝ} (h0 : 0 ≤ g) (h0' : 0 ≤ g') (hmc : 0 < mc) (hc : z ≤ mz → 0 < cosDeg z)

private theorem symm {A J g g' z : ℝ} {r r' : Decomp} (h : Steady A J g g' z r r') : Steady A J g' g z r' r := by
  obtain ⟨d, d', n, n', a1, a2, a3, a4, a5, a6⟩ := h
  exact ⟨d', d, n', n, a2, a1, a4, a3, by rwa [abs_sub_comm d', abs_sub_comm g', min_comm], by rwa [abs_sub_comm n', abs_sub_comm g', min_comm]⟩

include h0 h0' hmc hc

private theorem steady_both {df : ℝ → ℝ} {L J : ℝ} (hL : 0 ≤ L) (hJ : 0 ≤ J) (h : Lip df L J) {e : ℝ} (he : 0 < e) (f : Fl → Fl)
    (hf : ∀ k : ℝ, 0 ≤ k → k ≤ 1 → f (fin k) = fin (df k)) :
    Steady (1 + L) J g g' z (finishDf (fin g) (fin z) (fin mz) (clearnessIndex (fin g) (fin z) (fin e) (fin mc) 1) (f (clearnessIndex (fin g) (fin z) (fin e) (fin mc) 1)))
      (finishDf (fin g') (fin z) (fin mz) (clearnessIndex (fin g') (fin z) (fin e) (fin mc) 1) (f (clearnessIndex (fin g') (fin z) (fin e) (fin mc) 1))) := by
  rcases le_total g g' with q | q
  · exact steady_of hL hJ h h0 q he hmc hc f hf
  · exact symm (steady_of hL hJ h h0' q he hmc hc f hf)

omit h0 h0' hmc hc in
private theorem extra (doy : ℝ) : ∃ e : ℝ, 0 < e ∧ extraSpencer (fin doy) 1366.1 = fin e := by
  obtain ⟨f, h, h1, h2⟩ := extraSpencer_fin doy 1366.1
  refine ⟨1366.1 * f, ?_, h⟩
  norm_num at *; linarith

/-- **C222** (`erbs`): an error of the global irradiance is amplified 3.25 times at most, apart from jumps of 0.06 % of it. -/
theorem erbs_steady : Steady 3.25 0.0006 g g' z (erbs (fin g) (fin z) (fin doy) (fin mc) (fin mz)) (erbs (fin g') (fin z) (fin doy) (fin mc) (fin mz)) := by
  obtain ⟨e, he, hE⟩ := extra doy
  have := steady_both h0 h0' hmc hc (by norm_num) (by norm_num) erbs_lip he erbsDf fun k _ _ => erbsDf_real k
  rw [show (1 : ℝ) + 2.25 = 3.25 by norm_num] at this
  simpa only [erbs, hE] using this

/-- **C222** (`erbs_driesse`): 3.25 times at most; the jumps left are of the size of rounding errors. -/
theorem driesse_steady {e : ℝ} (he : 0 < e) : ∃ r r' : Decomp, erbsDriesse (fin g) (fin z) none (some (fin e)) (fin mc) (fin mz) = .ok r ∧
    erbsDriesse (fin g') (fin z) none (some (fin e)) (fin mc) (fin mz) = .ok r' ∧ Steady 3.25 4e-14 g g' z r r' := by
  refine ⟨_, _, rfl, rfl, ?_⟩
  have := steady_both h0 h0' hmc hc (by norm_num) (by norm_num) driesse_lip he erbsDriesseDf fun k _ _ => driesseDf_real k
  rw [show (1 : ℝ) + 2.25 = 3.25 by norm_num] at this
  simpa only [erbsDriesseExtra, zero_eq, maximum_fin, max_eq_right h0, max_eq_right h0'] using this

/-- **C222** (`orgill_hollands`): 2.84 times at most, apart from jumps of 0.015 % of it. -/
theorem orgill_steady : Steady 2.84 0.00015 g g' z (orgillHollands (fin g) (fin z) (fin doy) none (fin mc) (fin mz)) (orgillHollands (fin g') (fin z) (fin doy) none (fin mc) (fin mz)) := by
  obtain ⟨e, he, hE⟩ := extra doy
  have := steady_both h0 h0' hmc hc (by norm_num) (by norm_num) orgill_lip he orgillHollandsDf fun k _ _ => orgillDf_real k
  rw [show (1 : ℝ) + 1.84 = 2.84 by norm_num] at this
  simpa only [orgillHollands, hE] using this

/-- **C222** (`boland`): `1 + a_coeff / 4` times at most, without jumps. -/
theorem boland_steady {a b : ℝ} (ha : 0 ≤ a) : Steady (1 + a / 4) 0 g g' z (boland (fin g) (fin z) (fin doy) (fin a) (fin b) (fin mc) (fin mz))
    (boland (fin g') (fin z) (fin doy) (fin a) (fin b) (fin mc) (fin mz)) := by
  obtain ⟨e, he, hE⟩ := extra doy
  have := steady_both h0 h0' hmc hc (by positivity) le_rfl (boland_lip (b := b) ha) he (fun kt => 1 / (1 + Fl.exp (fin a * (kt - fin b)))) fun k _ _ => by
    have : (1 : ℝ) + Real.exp (a * (k - b)) ≠ 0 := by positivity
    rw [fin_sub, fin_mul, exp_fin, one_eq, fin_add, fin_div this]
  simpa only [boland, hE] using this
end

private theorem cos60 : cosDeg 60 = 1 / 2 := by
  simp only [cosDeg]; rw [show (60 : ℝ) * (Real.pi / 180) = Real.pi / 3 by ring]; exact Real.cos_pi_div_three

example := erbs_steady (g := 500) (g' := 510) (z := 60) (doy := 100) (mc := 0.065) (mz := 87) (by norm_num) (by norm_num) (by norm_num) (by rw [cos60]; norm_num)
example := driesse_steady (g := 500) (g' := 510) (z := 60) (mc := 0.065) (mz := 87) (e := 1366) (by norm_num) (by norm_num) (by norm_num) (by rw [cos60]; norm_num)
  (by norm_num)
example := orgill_steady (g := 500) (g' := 510) (z := 60) (doy := 100) (mc := 0.065) (mz := 87) (by norm_num) (by norm_num) (by norm_num) (by rw [cos60]; norm_num)
example := boland_steady (g := 500) (g' := 510) (z := 60) (doy := 100) (mc := 0.065) (mz := 87) (a := 8.645) (b := 0.613) (by norm_num) (by norm_num) (by norm_num)
  (by rw [cos60]; norm_num) (by norm_num)

end Pvlib.Props.DhiStable
end
