import Verif.Props.Soiling
import Verif.Props.Snow

/-! # Property C226: more rain, less dust, less snow or a warmer day never leave the modules dirtier -/

noncomputable section
open scoped Classical
open Real
namespace Pvlib.Props.Dirt
open Fl Pvlib.Tools Pvlib.Soiling Pvlib.Snow Pvlib.Props.Soiling Pvlib.Props.Snow Series Pvlib.Spec

/-! ### Kimber -/

/-- What `kimber` is given besides the time index. -/
structure Kimber where
  (rain : ℕ → ℝ) (threshold rate grace cap init accum : ℝ) (wash : ℕ → Prop)

/-- The call. -/
def Kimber.run (k : Kimber) (t : ℕ → ℝ) (i : ℕ) : Fl :=
  kimber t (fun j => fin (k.rain j)) (fin k.threshold) (fin k.rate) k.grace (fin k.cap) k.wash (fin k.init) k.accum i

/-- Inputs that make sense. -/
structure Kimber.Ok (k : Kimber) : Prop where
  rain : ∀ j, 0 ≤ k.rain j
  rate : 0 ≤ k.rate
  cap : 0 ≤ k.cap
  init : 0 ≤ k.init
  accum : 0 < k.accum

/-- `k'` is cleaner in every respect: more rain, lower cleaning threshold, longer accumulation and grace periods, more washing, slower soiling, lower cap, cleaner at the start. -/
structure Cleaner (k k' : Kimber) : Prop where
  rain : ∀ j, k.rain j ≤ k'.rain j
  threshold : k'.threshold ≤ k.threshold
  rate : k'.rate ≤ k.rate
  grace : k.grace ≤ k'.grace
  cap : k'.cap ≤ k.cap
  init : k'.init ≤ k.init
  accum : k.accum ≤ k'.accum
  wash : ∀ j, k.wash j → k'.wash j

private theorem rainIn_le {t : ℕ → ℝ} {p p' : ℝ} {r r' : ℕ → ℝ} (hp : p ≤ p') (h0 : ∀ j, 0 ≤ r' j) (h : ∀ j, r j ≤ r' j) (i : ℕ) : rainIn t p r i ≤ rainIn t p' r' i := by
  unfold rainIn
  refine (Finset.sum_le_sum fun j _ => h j).trans (Finset.sum_le_sum_of_subset_of_nonneg ?_ fun j _ _ => h0 j)
  intro j hj
  simp only [Finset.mem_filter] at hj ⊢
  exact ⟨hj.1, by linarith [hj.2]⟩

private theorem soil_nonneg {c : ℕ → Prop} {s cap init : ℝ} (hs : 0 ≤ s) (hc : 0 ≤ cap) (hi : 0 ≤ init) (i : ℕ) : 0 ≤ soil c s cap init i := by
  induction i with
  | zero => simp only [soil]; split_ifs <;> [exact le_rfl; exact le_min hc hi]
  | succ i ih => simp only [soil]; split_ifs <;> [exact le_rfl; exact le_min hc (by linarith)]

private theorem soil_le {c c' : ℕ → Prop} {s s' cap cap' init init' : ℝ} (hs' : 0 ≤ s) (hcap : 0 ≤ cap) (hi : 0 ≤ init) (h1 : ∀ j, c j → c' j) (h2 : s' ≤ s) (h3 : cap' ≤ cap)
    (h4 : init' ≤ init) (i : ℕ) : soil c' s' cap' init' i ≤ soil c s cap init i := by
  have hn : ∀ i, 0 ≤ soil c s cap init i := soil_nonneg hs' hcap hi
  induction i with
  | zero =>
    by_cases hc : c' 0
    · have := hn 0
      simpa only [soil, hc, if_true] using this
    · have hc1 : ¬ c 0 := fun h => hc (h1 0 h)
      simp only [soil, hc, hc1, if_false]
      exact min_le_min h3 h4
  | succ i ih =>
    by_cases hc : c' (i + 1)
    · have := hn (i + 1)
      simpa only [soil, hc, if_true] using this
    · have hc1 : ¬ c (i + 1) := fun h => hc (h1 _ h)
      simp only [soil, hc, hc1, if_false]
      exact min_le_min h3 (by linarith)

/-- **C226**: the Kimber model is monotone in all its inputs: on one time index, the modules that are cleaner in every respect have no higher soiling loss, at any time. -/
theorem kimber_cleaner {t : ℕ → ℝ} (ht : t 0 ≤ t 1) {k k' : Kimber} (hk : k.Ok) (hk' : k'.Ok) (h : Cleaner k k') (i : ℕ) : k'.run t i ≤ k.run t i := by
  unfold Kimber.run
  rw [kimber_recurrence t ht k.rain k.threshold k.rate k.grace k.cap k.init k.accum hk.rate hk.cap hk.accum k.wash i,
    kimber_recurrence t ht k'.rain k'.threshold k'.rate k'.grace k'.cap k'.init k'.accum hk'.rate hk'.cap hk'.accum k'.wash i, fin_le]
  have hd : 0 ≤ (t 1 - t 0) / 86400 := div_nonneg (by linarith) (by norm_num)
  refine soil_le (mul_nonneg hk.rate hd) hk.cap hk.init ?_ (mul_le_mul_of_nonneg_right h.rate hd) h.cap h.init i
  rintro j (hw | ⟨l, hl, h1, h2⟩)
  · exact Or.inl (h.wash j hw)
  · refine Or.inr ⟨l, hl, by linarith [h.grace], ?_⟩
    have := rainIn_le (t := t) (p := k.accum * 3600) (p' := k'.accum * 3600) (by linarith [h.accum]) hk'.rain h.rain l
    linarith [h.threshold]

/-- Daily data with and without a shower. -/
example := kimber_cleaner (t := fun i => (i : ℝ) * 86400) (by norm_num) (k := ⟨fun _ => 0, 6, 0.0015, 14, 0.3, 0.01, 24, fun _ => False⟩)
  (k' := ⟨fun i => if i = 3 then 10 else 0, 5, 0.001, 20, 0.3, 0, 48, fun i => i = 50⟩) (by constructor <;> norm_num)
  (by constructor <;> first | (intro j; dsimp only; split_ifs <;> norm_num; done) | norm_num)
  (by constructor <;> first | (intro j; dsimp only; split_ifs <;> norm_num; done) | norm_num) 60

/-! ### HSU -/

/-- What `hsu` is given besides the time index. -/
structure Hsu where
  (rain : ℕ → ℝ) (threshold tilt : ℝ) (fine pm10 : ℕ → ℝ) (vfine vcoarse period : ℝ)

/-- The call. -/
def Hsu.run (k : Hsu) (t : ℕ → ℝ) (i : ℕ) : Fl :=
  hsu t (fun j => fin (k.rain j)) (fin k.threshold) (fin k.tilt) (fun j => fin (k.fine j)) (fun j => fin (k.pm10 j)) (fin k.vfine) (fin k.vcoarse) k.period i

/-- Inputs that make sense. -/
structure Hsu.Ok (k : Hsu) : Prop where
  rain : ∀ j, 0 ≤ k.rain j
  fine : ∀ j, 0 ≤ k.fine j
  vfine : 0 ≤ k.vfine
  vcoarse : 0 ≤ k.vcoarse
  tilt : 0 ≤ k.tilt ∧ k.tilt ≤ 90
  period : 0 < k.period

/-- `k'` is cleaner in every respect: more rain, lower threshold, longer accumulation, steeper, less fine dust and less coarse dust (the difference of the two columns), which settle
more slowly. -/
structure LessDust (k k' : Hsu) : Prop where
  rain : ∀ j, k.rain j ≤ k'.rain j
  threshold : k'.threshold ≤ k.threshold
  period : k.period ≤ k'.period
  tilt : k.tilt ≤ k'.tilt
  fine : ∀ j, k'.fine j ≤ k.fine j
  coarse : ∀ j, k'.pm10 j - k'.fine j ≤ k.pm10 j - k.fine j
  vfine : k'.vfine ≤ k.vfine
  vcoarse : k'.vcoarse ≤ k.vcoarse

private theorem mass_nonneg' {c : ℕ → Prop} {d : ℕ → ℝ} (h : ∀ i, 0 ≤ d i) (i : ℕ) : 0 ≤ mass c d i := by
  induction i with
  | zero => simp only [mass]; split_ifs <;> [exact le_rfl; exact h 0]
  | succ i ih => simp only [mass]; split_ifs <;> [exact le_rfl; linarith [h (i + 1)]]

private theorem mass_le {c c' : ℕ → Prop} {d d' : ℕ → ℝ} (h0 : ∀ i, 0 ≤ d i) (h1 : ∀ j, c j → c' j) (h2 : ∀ j, d' j ≤ d j) (i : ℕ) : mass c' d' i ≤ mass c d i := by
  have hn := mass_nonneg' (c := c) h0
  induction i with
  | zero =>
    by_cases hc : c' 0
    · have := hn 0
      simpa only [mass, hc, if_true] using this
    · have hc1 : ¬ c 0 := fun h => hc (h1 0 h)
      simp only [mass, hc, hc1, if_false]
      exact h2 0
  | succ i ih =>
    by_cases hc : c' (i + 1)
    · have := hn (i + 1)
      simpa only [mass, hc, if_true] using this
    · have hc1 : ¬ c (i + 1) := fun h => hc (h1 _ h)
      simp only [mass, hc, hc1, if_false]
      linarith [h2 (i + 1)]

private theorem cos_ok {b : ℝ} (h : 0 ≤ b ∧ b ≤ 90) : 0 ≤ cosDeg b := by
  have := Real.pi_pos
  apply Real.cos_nonneg_of_neg_pi_div_two_le_of_le <;> (try unfold rad) <;> nlinarith [h.1, h.2]

private theorem cos_anti {a b : ℝ} (h0 : 0 ≤ a) (h : a ≤ b) (h1 : b ≤ 90) : cosDeg b ≤ cosDeg a := by
  have := Real.pi_pos
  apply Real.cos_le_cos_of_nonneg_of_le_pi <;> (try unfold rad) <;> nlinarith

private theorem step_nonneg {t : ℕ → ℝ} (ht : Monotone t) (i : ℕ) : 0 ≤ dtSec t i := by
  cases i <;> simp only [dtSec, sub_nonneg] <;> exact ht (by omega)

private theorem dep_nonneg' {t : ℕ → ℝ} (ht : Monotone t) {k : Hsu} (hk : k.Ok) (i : ℕ) : 0 ≤ deposition t k.tilt k.fine k.pm10 k.vfine k.vcoarse i := by
  have h1 := step_nonneg ht i
  have h2 := cos_ok hk.tilt
  have h3 := hk.fine i
  have h4 := hk.vfine
  have h5 := hk.vcoarse
  have h6 : 0 ≤ max (k.pm10 i - k.fine i) 0 := le_max_right _ _
  unfold deposition
  positivity

private theorem ratio_le {m m' : ℝ} (h0 : 0 ≤ m') (h : m' ≤ m) : fin (1 - 0.3437 * rerf (0.17 * m ^ (0.8473 : ℝ))) ≤ fin (1 - 0.3437 * rerf (0.17 * m' ^ (0.8473 : ℝ))) := by
  rw [fin_le]
  have h2 := Real.rpow_le_rpow h0 h (show (0 : ℝ) ≤ 0.8473 by norm_num)
  have h3 := rerf_mono (mul_le_mul_of_nonneg_left h2 (show (0 : ℝ) ≤ 0.17 by norm_num))
  nlinarith

/-- **C226**: the HSU model is monotone: where it is cleaner in every respect the soiling ratio is no lower, at any time. -/
theorem hsu_cleaner {t : ℕ → ℝ} (ht : Monotone t) {k k' : Hsu} (hk : k.Ok) (hk' : k'.Ok) (h : LessDust k k') (i : ℕ) : k.run t i ≤ k'.run t i := by
  unfold Hsu.run
  rw [hsu_value t ht k.rain k.threshold k.tilt k.fine k.pm10 k.vfine k.vcoarse k.period hk.period hk.fine hk.vfine hk.vcoarse (cos_ok hk.tilt) i,
    hsu_value t ht k'.rain k'.threshold k'.tilt k'.fine k'.pm10 k'.vfine k'.vcoarse k'.period hk'.period hk'.fine hk'.vfine hk'.vcoarse (cos_ok hk'.tilt) i]
  refine ratio_le (mass_nonneg' (dep_nonneg' ht hk') i) (mass_le (dep_nonneg' ht hk) ?_ ?_ i)
  · intro j hj
    unfold Washed at hj ⊢
    have := rainIn_le (t := t) h.period hk'.rain h.rain j
    linarith [h.threshold]
  · intro j
    have h1 := step_nonneg ht j
    have h2 := cos_ok hk'.tilt
    have h3 := cos_anti hk.tilt.1 h.tilt hk'.tilt.2
    have h4 := mul_le_mul (h.fine j) h.vfine hk'.vfine (hk.fine j)
    have h5 : max (k'.pm10 j - k'.fine j) 0 ≤ max (k.pm10 j - k.fine j) 0 := max_le_max (h.coarse j) le_rfl
    have h6 := mul_le_mul h5 h.vcoarse hk'.vcoarse (le_max_right _ _)
    have h7 : 0 ≤ k.fine j * k.vfine + max (k.pm10 j - k.fine j) 0 * k.vcoarse :=
      add_nonneg (mul_nonneg (hk.fine j) hk.vfine) (mul_nonneg (le_max_right _ _) hk.vcoarse)
    unfold deposition
    exact mul_le_mul (mul_le_mul_of_nonneg_right (add_le_add h4 h6) h1) h3 h2 (mul_nonneg h7 h1)

example := hsu_cleaner (t := fun i => (i : ℝ) * 3600) hourly_mono (k := ⟨fun _ => 0, 0.5, 20, fun _ => 1e-5, fun _ => 3e-5, 0.0009, 0.004, 3600⟩)
  (k' := ⟨fun i => if i = 2 then 1 else 0, 0.4, 30, fun _ => 5e-6, fun _ => 2e-5, 0.0009, 0.004, 7200⟩) (by constructor <;> norm_num)
  (by constructor <;> first | (intro j; dsimp only; split_ifs <;> norm_num; done) | norm_num)
  (by constructor <;> first | (intro j; dsimp only; split_ifs <;> norm_num; done) | norm_num) 5

/-- **C226**: but with the default settling velocities more fine dust can mean cleaner modules: PM10 includes the fine dust, so a higher PM2.5 at the same PM10 turns coarse dust into
fine dust, which settles more slowly. -/
theorem hsu_fine_dust {t : ℕ → ℝ} (ht : Monotone t) {k : Hsu} (hk : k.Ok) (hv : k.vfine ≤ k.vcoarse) {fine' : ℕ → ℝ} (hf : ∀ j, k.fine j ≤ fine' j) (hp : ∀ j, fine' j ≤ k.pm10 j)
    (i : ℕ) : k.run t i ≤ { k with fine := fine' }.run t i := by
  have hk' : { k with fine := fine' }.Ok := ⟨hk.rain, fun j => (hk.fine j).trans (hf j), hk.vfine, hk.vcoarse, hk.tilt, hk.period⟩
  unfold Hsu.run
  rw [hsu_value t ht k.rain k.threshold k.tilt k.fine k.pm10 k.vfine k.vcoarse k.period hk.period hk.fine hk.vfine hk.vcoarse (cos_ok hk.tilt) i,
    hsu_value t ht k.rain k.threshold k.tilt fine' k.pm10 k.vfine k.vcoarse k.period hk.period hk'.fine hk.vfine hk.vcoarse (cos_ok hk.tilt) i]
  refine ratio_le (mass_nonneg' (dep_nonneg' ht hk') i) (mass_le (dep_nonneg' ht hk) (fun j hj => hj) ?_ i)
  intro j
  have h1 := step_nonneg ht j
  have h2 := cos_ok hk.tilt
  unfold deposition
  refine mul_le_mul_of_nonneg_right (mul_le_mul_of_nonneg_right ?_ h1) h2
  have a1 := hf j
  have a2 := hp j
  rw [max_eq_left (by linarith), max_eq_left (by linarith)]
  nlinarith

example := hsu_fine_dust (t := fun i => (i : ℝ) * 3600) hourly_mono (k := ⟨fun _ => 0, 0.5, 20, fun _ => 1e-5, fun _ => 3e-5, 0.0009, 0.004, 3600⟩) (by constructor <;> norm_num)
  (by norm_num) (fine' := fun _ => 2e-5) (fun _ => by norm_num) (fun _ => by norm_num) 5

/-! ### Snow -/

/-- What `coverage_nrel` is given besides the time index and the depth of snow. -/
structure Snowy where
  (snowfall poa temp tilt : ℕ → ℝ) (init slide : ℝ)

/-- The call; `thr` and `thrDepth` are the thresholds, `mcoef` the coefficient of the sliding criterion. -/
def Snowy.run (k : Snowy) (t : ℕ → ℝ) (freq : Option ℝ) (depth : Option Series) (thr thrDepth : Fl) (mcoef : ℝ) (i : ℕ) : Fl :=
  coverageNrel t freq (fun j => fin (k.snowfall j)) (fun j => fin (k.poa j)) (fun j => fin (k.temp j)) (fun j => fin (k.tilt j)) depth (fin k.init) thr thrDepth (fin mcoef)
    (fin k.slide) i

/-- Inputs that make sense. -/
structure Snowy.Ok (k : Snowy) : Prop where
  tilt : ∀ j, 0 ≤ k.tilt j ∧ k.tilt j ≤ 90
  slide : 0 ≤ k.slide
  init : k.init ≤ 1

/-- `k'` has less snow in every respect: less snowfall, more sun, warmer, steeper, slipperier, less covered at the start. -/
structure LessSnow (k k' : Snowy) : Prop where
  snowfall : ∀ j, k'.snowfall j ≤ k.snowfall j
  poa : ∀ j, k.poa j ≤ k'.poa j
  temp : ∀ j, k.temp j ≤ k'.temp j
  tilt : ∀ j, k.tilt j ≤ k'.tilt j
  init : k'.init ≤ k.init
  slide : k.slide ≤ k'.slide

private theorem sin_mono {a b : ℝ} (h0 : 0 ≤ a) (h : a ≤ b) (h1 : b ≤ 90) : sinDeg a ≤ sinDeg b := by
  have := Real.pi_pos
  apply Real.sin_le_sin_of_le_of_le_pi_div_two <;> (try unfold rad) <;> nlinarith

private theorem cover_le {s s' : ℕ → Prop} {d d' : ℕ → Option ℝ} {c c' : ℝ} (hs : ∀ j, s' j → s j) (h1 : ∀ j, cover s' d' c' j ≤ 1) (h0 : ∀ j, 0 ≤ (d j).getD 0)
    (hd : ∀ j, ¬ s j → (d j).getD 0 ≤ (d' j).getD 0) (hc : c' ≤ c) (i : ℕ) : cover s' d' c' i ≤ cover s d c i := by
  induction i with
  | zero =>
    by_cases h : s 0
    · have := h1 0
      simpa only [cover, h, if_true] using this
    · have h' : ¬ s' 0 := fun q => h (hs 0 q)
      simp only [cover, h, h', if_false]
      exact max_le_max le_rfl (by linarith [hd 0 h])
  | succ i ih =>
    by_cases h : s (i + 1)
    · have := h1 (i + 1)
      simp only [cover, h, if_true] at this ⊢
      exact this
    · have h' : ¬ s' (i + 1) := fun q => h (hs _ q)
      simp only [cover, h, h', if_false]
      exact max_le_max le_rfl (by linarith [hd _ h])

/-- **C226**: NREL's snow coverage is monotone: with less snow in every respect the coverage is no larger, at any time (same snow depths; sliding criterion with a negative
coefficient, default -80). -/
theorem snow_less {t : ℕ → ℝ} (ht : StrictMono t) {freq : Option ℝ} (hfreq : ∀ h, freq = some h → 0 < h) {depth : Option Series} {thr : ℝ} {thrDepth : Fl} {mcoef : ℝ} (hm : mcoef < 0)
    {k k' : Snowy} (hk : k.Ok) (hk' : k'.Ok) (h : LessSnow k k') (i : ℕ) : k'.run t freq depth (fin thr) thrDepth mcoef i ≤ k.run t freq depth (fin thr) thrDepth mcoef i := by
  have b : ∀ k : Snowy, k.Ok → ∀ j, NanOr (fin (k.tilt j)) (fun b => 0 ≤ b ∧ b ≤ 180) := fun k hk j => by
    have := hk.tilt j
    exact (nanOr_fin _ _).mpr ⟨this.1, by linarith [this.2]⟩
  have val : ∀ k : Snowy, k.Ok → k.run t freq depth (fin thr) thrDepth mcoef i = fin (cover (NewSnow t freq (fun j => fin (k.snowfall j)) depth (fin thr) thrDepth)
      (slides t (NewSnow t freq (fun j => fin (k.snowfall j)) depth (fin thr) thrDepth) (fun j => fin (k.poa j)) (fun j => fin (k.temp j)) (fun j => fin (k.tilt j)) depth thrDepth
        (fin mcoef) k.slide) k.init i) := by
    intro k hk
    have := coverage_recurrence t ht.monotone freq (fun j => fin (k.snowfall j)) (fun j => fin (k.poa j)) (fun j => fin (k.temp j)) (fun j => fin (k.tilt j)) depth k.init k.slide
      hk.slide (fin thr) thrDepth (fin mcoef) (b k hk) i
    dsimp only at this
    rw [if_neg (by simp only [slides]; split_ifs <;> simp)] at this
    exact this
  rw [val k hk, val k' hk', fin_le]
  have hns : ∀ j, NewSnow t freq (fun j => fin (k'.snowfall j)) depth (fin thr) thrDepth j → NewSnow t freq (fun j => fin (k.snowfall j)) depth (fin thr) thrDepth j := by
    rintro j ⟨h1, h2⟩
    refine ⟨?_, h2⟩
    cases j with
    | zero =>
      cases freq with
      | none => exact h1
      | some f =>
        have hf := hfreq f rfl
        simp only [fin_div hf.ne', fin_lt] at h1 ⊢
        exact h1.trans_le (div_le_div_of_nonneg_right (h.snowfall 0) hf.le)
    | succ j =>
      have hd : 0 < t (j + 1) - t j := sub_pos.2 (ht (Nat.lt_succ_self j))
      simp only [fin_div hd.ne', fin_lt] at h1 ⊢
      exact h1.trans_le (div_le_div_of_nonneg_right (h.snowfall _) hd.le)
  have hn := slides_nonneg t ht.monotone (NewSnow t freq (fun j => fin (k.snowfall j)) depth (fin thr) thrDepth) (fun j => fin (k.poa j)) (fun j => fin (k.temp j))
    (fun j => fin (k.tilt j)) depth thrDepth (fin mcoef) k.slide hk.slide (b k hk)
  have hn' := slides_nonneg t ht.monotone (NewSnow t freq (fun j => fin (k'.snowfall j)) depth (fin thr) thrDepth) (fun j => fin (k'.poa j)) (fun j => fin (k'.temp j))
    (fun j => fin (k'.tilt j)) depth thrDepth (fin mcoef) k'.slide hk'.slide (b k' hk')
  refine cover_le hns (fun j => (cover_range _ _ _ hk'.init hn' j).2) hn ?_ h.init i
  intro j hj
  have hj' : ¬ NewSnow t freq (fun j => fin (k'.snowfall j)) depth (fin thr) thrDepth j := fun q => hj (hns j q)
  have hw : fin (k.poa j) / fin mcoef < fin (k.temp j) → fin (k'.poa j) / fin mcoef < fin (k'.temp j) := by
    intro hw
    rw [fin_div hm.ne, fin_lt] at hw ⊢
    have := div_le_div_of_nonpos_of_le hm.le (h.poa j)
    linarith [h.temp j]
  have q1 := sin_mono (hk.tilt j).1 (h.tilt j) (hk'.tilt j).2
  have q0 : 0 ≤ sinDeg (k.tilt j) := by
    have := sin_mono le_rfl (hk.tilt j).1 (hk.tilt j).2
    simpa [sinDeg, rad] using this
  have q2 : 0 ≤ t j - t (j - 1) := sub_nonneg.2 (ht.monotone (Nat.sub_le j 1))
  unfold slides
  split_ifs with a1 a2 a3 a3
  · exact le_rfl
  · exact le_rfl
  · exact mul_nonneg (mul_nonneg hk'.slide (q0.trans q1)) q2
  · exfalso
    rcases a3 with e | e | e
    · exact a2 (Or.inl e)
    · exact hj' e
    · exact a2 (Or.inr (Or.inr fun q => e (hw q)))
  · exact mul_le_mul_of_nonneg_right (mul_le_mul h.slide q1 q0 hk'.slide) q2

example := snow_less (t := fun i => (i : ℝ)) Nat.strictMono_cast (freq := some 1) (by rintro h ⟨⟩; norm_num) (depth := none) (thr := 1) (thrDepth := 1) (mcoef := -80) (by norm_num)
  (k := ⟨fun i => if i = 1 then 3 else 0, fun _ => 300, fun _ => -5, fun _ => 20, 0.5, 0.197⟩)
  (k' := ⟨fun _ => 0, fun _ => 400, fun _ => -4, fun _ => 30, 0.4, 0.197⟩) (by constructor <;> norm_num) (by constructor <;> norm_num)
  (by constructor <;> first | (intro j; dsimp only; split_ifs <;> norm_num; done) | norm_num) 4

end Pvlib.Props.Dirt
