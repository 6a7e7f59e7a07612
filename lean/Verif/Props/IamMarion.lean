import Verif.Props.Iam

/-! # Properties C61, C62: interpolated modifiers and Marion's diffuse integration -/

noncomputable section
open scoped Classical
open Real
namespace Pvlib.Props.IamMarion
open Fl Pvlib.Iam Pvlib.Tools Pvlib.Spec

/-! ### C61: interp -/

/-- **C61**: `interp` raises ValueError exactly for too few points (2 for linear, 3 quadratic, 4 cubic, 2 for the
deprecated kinds), a negative reference value, or an unknown method; otherwise what it does depends on the
interpolator only. -/
theorem interp_contract (mk : String → List Fl → List Fl → Except PyErr (Fl → Fl)) (aoi : Fl)
    (theta_ref iam_ref : List Fl) (method : String) (normalize : Bool) :
    let need := if method = "quadratic" then 3 else if method = "cubic" then 4 else 2
    let known := method ∈ ["linear", "quadratic", "cubic", "nearest", "nearest-up", "zero", "slinear", "previous", "next"]
    (theta_ref.length < need ∨ (∃ x ∈ iam_ref, x < 0) ∨ ¬ known →
      interp mk aoi theta_ref iam_ref method normalize = .error .valueError) ∧
    (need ≤ theta_ref.length → (∀ x ∈ iam_ref, ¬ x < 0) → known → ∀ e, mk method theta_ref iam_ref = .error e →
      interp mk aoi theta_ref iam_ref method normalize = .error e) ∧
    (need ≤ theta_ref.length → (∀ x ∈ iam_ref, ¬ x < 0) → known → ∀ f, mk method theta_ref iam_ref = .ok f →
      interp mk aoi theta_ref iam_ref method normalize =
        .ok (if normalize then maximum (f (Fl.abs aoi)) 0 / f 0 else maximum (f (Fl.abs aoi)) 0)) := by
  intro need known
  have hneed : minRefVals method = need := by
    simp only [minRefVals, need]
    by_cases h : method = "linear"
    · subst h; decide
    · simp only [h, if_false]
  have hk : (method ∉ interpMethods) = ¬ known := rfl
  refine ⟨fun h => ?_, fun h1 h2 h3 e he => ?_, fun h1 h2 h3 f hf => ?_⟩
  · simp only [interp, hneed]
    by_cases h1 : theta_ref.length < need
    · simp only [h1, if_true]
    · simp only [h1, if_false]
      by_cases h2 : ∃ x ∈ iam_ref, x < 0
      · simp only [h2, if_true]
      · have h3 : ¬ known := by
          rcases h with h | h | h
          · exact absurd h h1
          · exact absurd h h2
          · exact h
        simp only [h2, if_false, hk, h3, not_false_eq_true, if_true]
  · have h2' : ¬ ∃ x ∈ iam_ref, x < 0 := by push Not; exact h2
    simp only [interp, hneed, not_lt.mpr h1, if_false, h2', hk, h3, not_true_eq_false, he]
  · have h2' : ¬ ∃ x ∈ iam_ref, x < 0 := by push Not; exact h2
    simp only [interp, hneed, not_lt.mpr h1, if_false, h2', hk, h3, not_true_eq_false, hf]

example (mk) := (interp_contract mk (fin 30) [fin 0] [fin 1] "linear" true).1 (.inl (by decide))
example (mk : String → List Fl → List Fl → Except PyErr (Fl → Fl)) (f : Fl → Fl) (h : mk "linear" [fin 0, fin 90] [fin 1, fin 0] = .ok f) :=
  (interp_contract mk (fin 30) [fin 0, fin 90] [fin 1, fin 0] "linear" true).2.2 (by decide) (by simp) (by simp) f h

/-- Points with strictly increasing abscissae. -/
def Increasing (pts : List (ℝ × ℝ)) : Prop := (pts.map Prod.fst).Pairwise (· < ·)

/-- The linear interpolator passes through every reference point. -/
theorem linSpline_node (pts : List (ℝ × ℝ)) (h : Increasing pts) : ∀ p ∈ pts, linSpline pts p.1 = p.2 := by
  match pts, h with
  | [], _ => simp
  | [a], _ => simp [linSpline]
  | [a, b], h =>
    have hab : a.1 < b.1 := by simpa [Increasing] using h
    intro p hp
    simp only [List.mem_cons, List.not_mem_nil, or_false] at hp
    rcases hp with rfl | rfl
    · simp [linSpline]
    · have : p.1 - a.1 ≠ 0 := by linarith
      simp only [linSpline]; field_simp; ring
  | a :: b :: c :: rest, h =>
    have h' : Increasing (b :: c :: rest) := by
      simp only [Increasing, List.map_cons, List.pairwise_cons] at h ⊢
      exact h.2
    have hab : a.1 < b.1 := by
      simp only [Increasing, List.map_cons, List.pairwise_cons] at h
      exact h.1 _ (by simp)
    intro p hp
    have ih := linSpline_node (b :: c :: rest) h'
    rcases List.mem_cons.mp hp with rfl | hp'
    · simp [linSpline, hab.le]
    · rcases List.mem_cons.mp hp' with rfl | hp''
      · have : p.1 - a.1 ≠ 0 := by linarith
        simp only [linSpline, le_refl, if_true]; field_simp; ring
      · have : b.1 < p.1 := by
          simp only [Increasing, List.map_cons, List.pairwise_cons] at h'
          rcases List.mem_cons.mp hp'' with rfl | hq
          · exact h'.1 _ (by simp)
          · exact h'.1 _ (by simp only [List.mem_cons, List.mem_map]; exact Or.inr ⟨p, hq, rfl⟩)
        simp only [linSpline, not_le.mpr this, if_false]
        exact ih p hp'

example := linSpline_node [(0, 1), (60, 0.9), (90, 0)] (by norm_num [Increasing])

/-- Between the first and the last abscissa the linear interpolator stays within the reference values. -/
theorem linSpline_range (pts : List (ℝ × ℝ)) (h : Increasing pts) (lo hi : ℝ)
    (hv : ∀ p ∈ pts, lo ≤ p.2 ∧ p.2 ≤ hi) (x : ℝ) (hx0 : ∃ p ∈ pts, p.1 ≤ x) (hx1 : ∃ p ∈ pts, x ≤ p.1) :
    lo ≤ linSpline pts x ∧ linSpline pts x ≤ hi := by
  have seg : ∀ a b : ℝ × ℝ, a.1 < b.1 → a.1 ≤ x → x ≤ b.1 → (lo ≤ a.2 ∧ a.2 ≤ hi) → (lo ≤ b.2 ∧ b.2 ≤ hi) →
      lo ≤ a.2 + (b.2 - a.2) / (b.1 - a.1) * (x - a.1) ∧ a.2 + (b.2 - a.2) / (b.1 - a.1) * (x - a.1) ≤ hi := by
    intro a b hab h1 h2 ha hb
    have hd : 0 < b.1 - a.1 := by linarith
    set t := (x - a.1) / (b.1 - a.1) with ht
    have t0 : 0 ≤ t := div_nonneg (by linarith) hd.le
    have t1 : t ≤ 1 := (div_le_one hd).mpr (by linarith)
    have e : a.2 + (b.2 - a.2) / (b.1 - a.1) * (x - a.1) = (1 - t) * a.2 + t * b.2 := by
      rw [ht]; field_simp; ring
    rw [e]
    constructor <;> nlinarith [ha.1, ha.2, hb.1, hb.2]
  match pts, h with
  | [], _ => simp at hx0
  | [a], _ => simpa [linSpline] using hv a (by simp)
  | [a, b], h =>
    have hab : a.1 < b.1 := by simpa [Increasing] using h
    have h1 : a.1 ≤ x := by
      obtain ⟨p, hp, hpx⟩ := hx0
      simp only [List.mem_cons, List.not_mem_nil, or_false] at hp
      rcases hp with rfl | rfl <;> linarith
    have h2 : x ≤ b.1 := by
      obtain ⟨p, hp, hpx⟩ := hx1
      simp only [List.mem_cons, List.not_mem_nil, or_false] at hp
      rcases hp with rfl | rfl <;> linarith
    exact seg a b hab h1 h2 (hv a (by simp)) (hv b (by simp))
  | a :: b :: c :: rest, h =>
    have h' : Increasing (b :: c :: rest) := by
      simp only [Increasing, List.map_cons, List.pairwise_cons] at h ⊢
      exact h.2
    have hmin : ∀ p ∈ b :: c :: rest, a.1 < p.1 := by
      intro p hp
      simp only [Increasing, List.map_cons, List.pairwise_cons] at h
      apply h.1
      simp only [List.mem_cons, List.mem_map] at hp ⊢
      rcases hp with rfl | rfl | hq
      · simp
      · simp
      · exact Or.inr (Or.inr ⟨p, hq, rfl⟩)
    have hab := hmin b (by simp)
    by_cases hb : x ≤ b.1
    · simp only [linSpline, hb, if_true]
      have h1 : a.1 ≤ x := by
        obtain ⟨p, hp, hpx⟩ := hx0
        rcases List.mem_cons.mp hp with rfl | hp'
        · exact hpx
        · linarith [hmin p hp']
      exact seg a b hab h1 hb (hv a (by simp)) (hv b (by simp))
    · simp only [linSpline, hb, if_false]
      apply linSpline_range (b :: c :: rest) h' lo hi (fun p hp => hv p (List.mem_cons_of_mem _ hp)) x
        ⟨b, by simp, (lt_of_not_ge hb).le⟩
      obtain ⟨p, hp, hpx⟩ := hx1
      rcases List.mem_cons.mp hp with rfl | hp'
      · exact absurd (hpx.trans hab.le) hb
      · exact ⟨p, hp', hpx⟩

example := linSpline_range [(0, 1), (60, 0.9), (90, 0)] (by norm_num [Increasing]) 0 1
  (by intro p hp; simp only [List.mem_cons, List.not_mem_nil, or_false] at hp; rcases hp with rfl | rfl | rfl <;> norm_num) 70
  ⟨(0, 1), by simp, by norm_num⟩ ⟨(90, 0), by simp, by norm_num⟩

/-- The interpolator factory restricted to `'linear'` on finite data. -/
def linMk (pts : List (ℝ × ℝ)) : String → List Fl → List Fl → Except PyErr (Fl → Fl) := fun _ _ _ =>
  .ok fun x => match x with
    | fin r => fin (linSpline pts r)
    | _ => nan

/-- **C61**: linear interpolation of non-negative reference values starting at angle 0 with a positive value there:
the modifier is 1 at normal incidence, even, equals the normalised reference value at every reference angle, and lies
between 0 and the largest normalised reference value up to the last reference angle. -/
theorem interp_linear (pts : List (ℝ × ℝ)) (v0 M : ℝ) (rest : List (ℝ × ℝ)) (hp : pts = (0, v0) :: rest)
    (hr : rest ≠ []) (hinc : Increasing pts) (hv0 : 0 < v0) (hnn : ∀ p ∈ pts, 0 ≤ p.2 ∧ p.2 ≤ M) :
    let f := fun aoi => interp (linMk pts) aoi (pts.map fun p => fin p.1) (pts.map fun p => fin p.2) "linear"
    f (fin 0) = .ok (fin 1) ∧ (∀ a : ℝ, f (fin (-a)) = f (fin a)) ∧
    (∀ p ∈ pts, f (fin p.1) = .ok (fin (p.2 / v0))) ∧
    (∀ a : ℝ, (∃ p ∈ pts, |a| ≤ p.1) → ∃ r, f (fin a) = .ok (fin r) ∧ 0 ≤ r ∧ r ≤ M / v0) ∧
    f nan = .ok nan := by
  intro f
  have hlen : 2 ≤ pts.length := by
    subst hp
    cases rest with
    | nil => exact absurd rfl hr
    | cons q r => simp
  have hneg : ∀ x ∈ pts.map (fun p => fin p.2), ¬ x < 0 := by
    intro x hx
    obtain ⟨p, hp, rfl⟩ := List.mem_map.mp hx
    simpa using (hnn p hp).1
  have h0 : linSpline pts 0 = v0 := by
    have := linSpline_node pts hinc (0, v0) (by rw [hp]; simp)
    exact this
  have ev : ∀ aoi : Fl, f aoi = .ok (maximum (match Fl.abs aoi with
      | fin r => fin (linSpline pts r)
      | _ => nan) 0 / fin v0) := by
    intro aoi
    have hc := (interp_contract (linMk pts) aoi (pts.map fun p => fin p.1) (pts.map fun p => fin p.2) "linear" true).2.2
      (by simpa using hlen) hneg (by simp) _ rfl
    simp only [f]
    rw [hc]
    simp only [if_true, zero_eq, h0]
  have ev' : ∀ a : ℝ, f (fin a) = .ok (fin (max (linSpline pts |a|) 0 / v0)) := by
    intro a
    rw [ev]
    simp [hv0.ne']
  have hx0 : ∀ a : ℝ, ∃ p ∈ pts, p.1 ≤ |a| := fun a => ⟨(0, v0), by rw [hp]; simp, abs_nonneg a⟩
  have hmin : ∀ p ∈ pts, 0 ≤ p.1 := by
    intro p hpm
    rw [hp] at hpm
    rcases List.mem_cons.mp hpm with rfl | hq
    · exact le_rfl
    · rw [hp] at hinc
      simp only [Increasing, List.map_cons, List.pairwise_cons, List.mem_map] at hinc
      exact (hinc.1 _ ⟨p, hq, rfl⟩).le
  refine ⟨?_, fun a => ?_, fun p hpm => ?_, fun a ha => ?_, ?_⟩
  · rw [ev', abs_zero, h0, max_eq_left hv0.le, div_self hv0.ne']
  · rw [ev', ev', abs_neg]
  · rw [ev', abs_of_nonneg (hmin p hpm), linSpline_node pts hinc p hpm, max_eq_left (hnn p hpm).1]
  · obtain ⟨l, u⟩ := linSpline_range pts hinc 0 M hnn |a| (hx0 a) ha
    refine ⟨_, ev' a, ?_, ?_⟩
    · rw [max_eq_left l]; positivity
    · rw [max_eq_left l]; gcongr
  · rw [ev]; simp

/-- The hypotheses are met: reference points (0, 1), (60, 0.95), (90, 0). -/
example : Increasing [(0, 1), (60, 0.95), (90, 0)] ∧
    ∀ p ∈ ([(0, 1), (60, 0.95), (90, 0)] : List (ℝ × ℝ)), 0 ≤ p.2 ∧ p.2 ≤ 1 := by
  constructor
  · simp [Increasing]; norm_num
  · simp; norm_num

/-! ### C62: marion_integrate, marion_diffuse -/

/-- **C62**: which calls are refused: an unknown region always; `num = 0` divides by zero first. -/
theorem marion_errors (f : Fl → Fl) (tilt : Fl) (region : String) :
    (region ∉ ["sky", "horizon", "ground"] → marionIntegrate f tilt region = .error .valueError) ∧
    (∀ num : ℕ, 0 < num → region ∉ ["sky", "horizon", "ground"] →
      marionIntegrate f tilt region (some num) = .error .valueError) ∧
    marionIntegrate f tilt region (some 0) = .error .zeroDivision ∧
    (region ∈ ["sky", "ground"] → marionIntegrate f tilt region = marionIntegrate f tilt region (some 180)) ∧
    marionIntegrate f tilt "horizon" = marionIntegrate f tilt "horizon" (some 1800) ∧
    (∀ num : ℕ, 0 < num → region ∈ ["sky", "horizon", "ground"] →
      ∃ v, marionIntegrate f tilt region (some num) = .ok v) := by
  refine ⟨fun h => ?_, fun num hn h => ?_, ?_, fun h => ?_, ?_, fun num hn h => ?_⟩
  · simp only [List.mem_cons, List.not_mem_nil, or_false, not_or] at h
    simp [marionIntegrate, defaultNum, h.1, h.2.1, h.2.2]
  · simp only [List.mem_cons, List.not_mem_nil, or_false, not_or] at h
    simp [marionIntegrate, h.1, h.2.1, h.2.2, hn.ne']
  · simp [marionIntegrate]
  · simp only [List.mem_cons, List.not_mem_nil, or_false] at h
    rcases h with rfl | rfl <;> simp [marionIntegrate, defaultNum]
  · simp [marionIntegrate, defaultNum]
  · refine ⟨marionFd f tilt region num, ?_⟩
    simp only [List.mem_cons, List.not_mem_nil, or_false] at h
    rcases h with rfl | rfl | rfl <;> simp [marionIntegrate, hn.ne']

/-- The cosine of the angle of incidence on a surface tilted by `beta` (towards psi = 0) of light from polar angle
`phi`, azimuth `psi` (radians). -/
def cosIncidence (beta phi psi : ℝ) : ℝ := Real.cos beta * Real.cos phi + Real.sin beta * Real.sin phi * Real.cos psi

private theorem cosIncidence_abs (beta phi psi : ℝ) : |cosIncidence beta phi psi| ≤ 1 := by
  have h1 := Real.sin_sq_add_cos_sq beta
  have h2 := Real.sin_sq_add_cos_sq phi
  have h3 := Real.cos_sq_le_one psi
  apply abs_le_one_iff_mul_self_le_one.mpr
  unfold cosIncidence
  set a := Real.cos beta; set b := Real.sin beta; set c := Real.cos phi; set d := Real.sin phi; set e := Real.cos psi
  nlinarith [sq_nonneg (a * d * e - b * c), sq_nonneg (b * d), sq_nonneg (a * d), mul_nonneg (sq_nonneg (b * d)) (sub_nonneg.mpr h3), mul_nonneg (sq_nonneg (a * d)) (sub_nonneg.mpr h3)]

/-- The weight of a cell: projected solid angle if it faces the surface, else 0. -/
def cellWeight (beta ai : ℝ) (cell : ℝ × ℝ) : ℝ :=
  let c := cosIncidence beta (cell.1 + 0.5 * ai) (cell.2 + 0.5 * ai)
  if 0 < c then c * (ai * (Real.cos cell.1 - Real.cos (cell.1 + ai))) else 0

private theorem arccos_lt_iff {c : ℝ} : Real.arccos c < π / 2 ↔ 0 < c := Real.arccos_lt_pi_div_two

/-- The angle of incidence of a cell, degrees. -/
def cellAngle (beta ai : ℝ) (cell : ℝ × ℝ) : ℝ :=
  Real.arccos (cosIncidence beta (cell.1 + 0.5 * ai) (cell.2 + 0.5 * ai)) * (180 / π)

private theorem cell_eval (f : Fl → Fl) (beta ai : ℝ) (cell : ℝ × ℝ) :
    marionCell f (fin beta) ai cell =
      (f (fin (cellAngle beta ai cell)) * fin (cellWeight beta ai cell), fin (cellWeight beta ai cell)) := by
  have hb := cosIncidence_abs beta (cell.1 + 0.5 * ai) (cell.2 + 0.5 * ai)
  rw [abs_le] at hb
  have e : Fl.cos (fin beta) * fin (Real.cos (cell.1 + 0.5 * ai)) +
      Fl.sin (fin beta) * fin (Real.sin (cell.1 + 0.5 * ai)) * fin (Real.cos (cell.2 + 0.5 * ai)) =
      fin (cosIncidence beta (cell.1 + 0.5 * ai) (cell.2 + 0.5 * ai)) := by
    simp only [cos_fin, sin_fin, fin_mul, fin_add, cosIncidence]
  simp only [marionCell, e, arccos_fin hb.1 hb.2, degrees_fin, fin_lt, npwhere, zero_eq, fin_mul]
  by_cases h : 0 < cosIncidence beta (cell.1 + 0.5 * ai) (cell.2 + 0.5 * ai)
  · simp only [arccos_lt_iff.mpr h, if_true, cellWeight, h, cellAngle]
  · simp only [mt arccos_lt_iff.mp h, if_false, cellWeight, h, cellAngle]

private theorem cells_phi {region : String} {num : ℕ} {cell : ℝ × ℝ} (h : cell ∈ marionCells region num) :
    0 ≤ cell.1 ∧ cell.1 + π / num ≤ π ∧ 0 < num ∧ regionMask region (π / num) cell.1 := by
  simp only [marionCells, List.mem_flatMap, List.mem_filter, List.mem_map, List.mem_range, decide_eq_true_eq] at h
  obtain ⟨phi, ⟨⟨i, hi, rfl⟩, hm⟩, j, _, rfl⟩ := h
  have hp := Real.pi_pos
  have hn : 0 < num := by omega
  have hn' : (0 : ℝ) < num := by exact_mod_cast hn
  refine ⟨by positivity, ?_, hn, hm⟩
  have : (i : ℝ) + 1 ≤ num := by exact_mod_cast hi
  have e : (i : ℝ) * (π / num) + π / num = ((i : ℝ) + 1) * (π / num) := by ring
  simp only [e]
  calc ((i : ℝ) + 1) * (π / num) ≤ num * (π / num) := by gcongr
    _ = π := by field_simp

private theorem dA_pos {phi ai : ℝ} (h0 : 0 ≤ phi) (ha : 0 < ai) (h1 : phi + ai ≤ π) :
    0 < ai * (Real.cos phi - Real.cos (phi + ai)) := by
  have := Real.cos_lt_cos_of_nonneg_of_le_pi h0 h1 (by linarith)
  apply mul_pos ha; linarith

private theorem cellWeight_nonneg {region : String} {num : ℕ} {cell : ℝ × ℝ} (beta : ℝ)
    (h : cell ∈ marionCells region num) :
    0 ≤ cellWeight beta (π / num) cell ∧
      (0 < cellWeight beta (π / num) cell ↔
        0 < cosIncidence beta (cell.1 + 0.5 * (π / num)) (cell.2 + 0.5 * (π / num))) := by
  obtain ⟨h0, h1, hn, _⟩ := cells_phi h
  have hp := Real.pi_pos
  have hn' : (0 : ℝ) < num := by exact_mod_cast hn
  have hd := dA_pos h0 (show 0 < π / num by positivity) h1
  unfold cellWeight
  simp only
  split_ifs with hc
  · exact ⟨by positivity, by simp only [hc, iff_true]; positivity⟩
  · simp [hc]

private theorem sum_map_fin {α : Type} (l : List α) (w : α → ℝ) : Fl.sum (l.map fun c => fin (w c)) = fin (l.map w).sum := by
  rw [← sum_fin, List.map_map]; rfl

private theorem Fd_eval (f : Fl → Fl) (g : ℝ → ℝ) (hf : ∀ x : ℝ, 0 ≤ x → x ≤ 180 → f (fin x) = fin (g x)) (tilt : ℝ)
    (region : String) (num : ℕ) :
    let cs := marionCells region num
    let w := cellWeight (rad tilt) (π / num)
    let a := cellAngle (rad tilt) (π / num)
    marionFd f (fin tilt) region num =
      if (cs.map w).sum = 0 then fin 0 else fin ((cs.map fun c => g (a c) * w c).sum / (cs.map w).sum) := by
  intro cs w a
  have hr : radians (fin tilt) = fin (rad tilt) := rfl
  have hang : ∀ c, 0 ≤ a c ∧ a c ≤ 180 := by
    intro c
    have hp := Real.pi_pos
    simp only [a, cellAngle]
    refine ⟨mul_nonneg (Real.arccos_nonneg _) (by positivity), ?_⟩
    calc Real.arccos _ * (180 / π) ≤ π * (180 / π) := by gcongr; exact Real.arccos_le_pi _
      _ = 180 := by field_simp
  have hcell : ∀ c, marionCell f (fin (rad tilt)) (π / num) c = (fin (g (a c) * w c), fin (w c)) := by
    intro c
    rw [cell_eval, hf _ (hang c).1 (hang c).2, fin_mul]
  have e1 : (cs.map (marionCell f (fin (rad tilt)) (π / num))).map Prod.fst = cs.map fun c => fin (g (a c) * w c) := by
    rw [List.map_map]; apply List.map_congr_left; intro c _; simp [hcell]
  have e2 : (cs.map (marionCell f (fin (rad tilt)) (π / num))).map Prod.snd = cs.map fun c => fin (w c) := by
    rw [List.map_map]; apply List.map_congr_left; intro c _; simp [hcell]
  simp only [marionFd, hr]
  rw [show (marionCells region num) = cs from rfl, e1, e2, sum_map_fin, sum_map_fin]
  simp only [isfinite_fin, not_true_eq_false, or_false, npwhere, zero_eq, eqv_fin]
  by_cases h : (cs.map w).sum = 0
  · simp [h]
  · simp [h]

private theorem weighted_bounds {α : Type} (l : List α) (w g : α → ℝ) (m M : ℝ) (hw : ∀ c ∈ l, 0 ≤ w c)
    (hg : ∀ c ∈ l, 0 < w c → m ≤ g c ∧ g c ≤ M) :
    m * (l.map w).sum ≤ (l.map fun c => g c * w c).sum ∧ (l.map fun c => g c * w c).sum ≤ M * (l.map w).sum ∧
      0 ≤ (l.map w).sum ∧ ((∃ c ∈ l, 0 < w c) → 0 < (l.map w).sum) := by
  induction l with
  | nil => simp
  | cons a l ih =>
    obtain ⟨i1, i2, i3, i4⟩ := ih (fun c hc => hw c (List.mem_cons_of_mem _ hc))
      (fun c hc => hg c (List.mem_cons_of_mem _ hc))
    have ha := hw a (by simp)
    simp only [List.map_cons, List.sum_cons]
    have hga : m * w a ≤ g a * w a ∧ g a * w a ≤ M * w a := by
      rcases ha.eq_or_lt with h | h
      · rw [← h]; simp
      · obtain ⟨h1, h2⟩ := hg a (by simp) h
        exact ⟨mul_le_mul_of_nonneg_right h1 ha, mul_le_mul_of_nonneg_right h2 ha⟩
    refine ⟨by linarith [hga.1], by linarith [hga.2], by linarith, ?_⟩
    rintro ⟨c, hc, hcw⟩
    rcases List.mem_cons.mp hc with rfl | hc'
    · linarith
    · have := i4 ⟨c, hc', hcw⟩; linarith

private theorem angle_lt_90 {beta ai : ℝ} {cell : ℝ × ℝ}
    (h : 0 < cosIncidence beta (cell.1 + 0.5 * ai) (cell.2 + 0.5 * ai)) :
    0 ≤ cellAngle beta ai cell ∧ cellAngle beta ai cell < 90 := by
  have hp := Real.pi_pos
  unfold cellAngle
  refine ⟨mul_nonneg (Real.arccos_nonneg _) (by positivity), ?_⟩
  calc Real.arccos _ * (180 / π) < π / 2 * (180 / π) := by gcongr; exact arccos_lt_iff.mpr h
    _ = 90 := by field_simp; norm_num

/-- **C62**: the diffuse modifier is an average of the direct modifier: whatever the region, tilt and number of
increments, if the modifier is a number everywhere and lies between `m` and `M` at the angles below 90 degrees, the
result lies between `m` and `M`, or is 0 (no cell of the region faces the surface). -/
theorem marion_average (f : Fl → Fl) (g : ℝ → ℝ) (hf : ∀ x : ℝ, 0 ≤ x → x ≤ 180 → f (fin x) = fin (g x)) (m M : ℝ)
    (hg : ∀ x : ℝ, 0 ≤ x → x < 90 → m ≤ g x ∧ g x ≤ M) (tilt : ℝ) (region : String)
    (hr : region ∈ ["sky", "horizon", "ground"]) (num : ℕ) (hn : 0 < num) :
    ∃ r, marionIntegrate f (fin tilt) region (some num) = .ok (fin r) ∧ (r = 0 ∨ (m ≤ r ∧ r ≤ M)) := by
  have hi : marionIntegrate f (fin tilt) region (some num) = .ok (marionFd f (fin tilt) region num) := by
    simp only [List.mem_cons, List.not_mem_nil, or_false] at hr
    rcases hr with rfl | rfl | rfl <;> simp [marionIntegrate, hn.ne']
  rw [hi, Fd_eval f g hf]
  obtain ⟨b1, b2, b3, _⟩ := weighted_bounds (marionCells region num) (cellWeight (rad tilt) (π / num))
    (fun c => g (cellAngle (rad tilt) (π / num) c)) m M (fun c hc => (cellWeight_nonneg _ hc).1) (by
      intro c hc hw
      obtain ⟨h0, h9⟩ := angle_lt_90 ((cellWeight_nonneg _ hc).2.mp hw)
      exact hg _ h0 h9)
  split_ifs with h
  · exact ⟨0, rfl, Or.inl rfl⟩
  · refine ⟨_, rfl, Or.inr ⟨?_, ?_⟩⟩
    · rw [le_div_iff₀ (lt_of_le_of_ne b3 (Ne.symm h))]; exact b1
    · rw [div_le_iff₀ (lt_of_le_of_ne b3 (Ne.symm h))]; exact b2

example := marion_average (fun _ => fin 0.9) (fun _ => 0.9) (fun _ _ _ => rfl) 0.9 0.9 (fun _ _ _ => ⟨le_refl _, le_refl _⟩) 30 "sky" (by simp) 180
  (by norm_num)

/-- A cell that faces the surface makes the average proper. -/
private theorem average_proper (f : Fl → Fl) (g : ℝ → ℝ) (hf : ∀ x : ℝ, 0 ≤ x → x ≤ 180 → f (fin x) = fin (g x))
    (m M : ℝ) (hg : ∀ x : ℝ, 0 ≤ x → x < 90 → m ≤ g x ∧ g x ≤ M) (tilt : ℝ) (region : String) (num : ℕ)
    (hx : ∃ c ∈ marionCells region num, 0 < cosIncidence (rad tilt) (c.1 + 0.5 * (π / num)) (c.2 + 0.5 * (π / num))) :
    ∃ r, marionFd f (fin tilt) region num = fin r ∧ m ≤ r ∧ r ≤ M := by
  rw [Fd_eval f g hf]
  obtain ⟨b1, b2, b3, b4⟩ := weighted_bounds (marionCells region num) (cellWeight (rad tilt) (π / num))
    (fun c => g (cellAngle (rad tilt) (π / num) c)) m M (fun c hc => (cellWeight_nonneg _ hc).1) (by
      intro c hc hw
      obtain ⟨h0, h9⟩ := angle_lt_90 ((cellWeight_nonneg _ hc).2.mp hw)
      exact hg _ h0 h9)
  obtain ⟨c, hc, hcw⟩ := hx
  have hpos := b4 ⟨c, hc, (cellWeight_nonneg _ hc).2.mpr hcw⟩
  rw [if_neg hpos.ne']
  refine ⟨_, rfl, ?_, ?_⟩
  · rw [le_div_iff₀ hpos]; exact b1
  · rw [div_le_iff₀ hpos]; exact b2

/-- **C62**: for tilts from 0 to 90 degrees and at least two increments the sky does face the surface: the sky modifier
is a proper average. -/
theorem marion_sky (f : Fl → Fl) (g : ℝ → ℝ) (hf : ∀ x : ℝ, 0 ≤ x → x ≤ 180 → f (fin x) = fin (g x)) (m M : ℝ)
    (hg : ∀ x : ℝ, 0 ≤ x → x < 90 → m ≤ g x ∧ g x ≤ M) (tilt : ℝ) (h0 : 0 ≤ tilt) (h1 : tilt ≤ 90) (num : ℕ)
    (hn : 2 ≤ num) :
    ∃ r, marionIntegrate f (fin tilt) "sky" (some num) = .ok (fin r) ∧ m ≤ r ∧ r ≤ M := by
  have hp := Real.pi_pos
  have hn' : (2 : ℝ) ≤ num := by exact_mod_cast hn
  have hn0 : (0 : ℝ) < num := by linarith
  have hai : π / num ≤ π / 2 := div_le_div_of_nonneg_left hp.le (by norm_num) hn'
  have hai0 : 0 < π / num := by positivity
  have hex : ∃ c ∈ marionCells "sky" num,
      0 < cosIncidence (rad tilt) (c.1 + 0.5 * (π / num)) (c.2 + 0.5 * (π / num)) := by
    refine ⟨(0, 0), ?_, ?_⟩
    · simp only [marionCells, List.mem_flatMap, List.mem_filter, List.mem_map, List.mem_range, decide_eq_true_eq]
      refine ⟨0, ⟨⟨0, by omega, by simp⟩, ?_⟩, 0, by omega, by simp⟩
      simp only [regionMask, if_true, zero_add]
      exact hai
    · simp only [zero_add, cosIncidence]
      set x := 0.5 * (π / num) with hx
      have x0 : 0 < x := by rw [hx]; positivity
      have x1 : x ≤ π / 4 := by rw [hx]; linarith
      have cx : 0 < Real.cos x := Real.cos_pos_of_mem_Ioo ⟨by linarith, by linarith⟩
      have sx : 0 < Real.sin x := Real.sin_pos_of_pos_of_lt_pi x0 (by linarith)
      have b0 : 0 ≤ rad tilt := by simp only [rad]; positivity
      have b1 : rad tilt ≤ π / 2 := by simp only [rad]; nlinarith
      have cb : 0 ≤ Real.cos (rad tilt) := Real.cos_nonneg_of_mem_Icc ⟨by linarith, b1⟩
      have sb : 0 ≤ Real.sin (rad tilt) := Real.sin_nonneg_of_nonneg_of_le_pi b0 (by linarith)
      have hsq := Real.sin_sq_add_cos_sq (rad tilt)
      rcases cb.eq_or_lt with h | h
      · have : Real.sin (rad tilt) ≠ 0 := by
          intro e; rw [e, ← h] at hsq; norm_num at hsq
        have : 0 < Real.sin (rad tilt) := lt_of_le_of_ne sb (Ne.symm this)
        rw [← h, zero_mul, zero_add]; positivity
      · positivity
  obtain ⟨r, hr, hb⟩ := average_proper f g hf m M hg tilt "sky" num hex
  refine ⟨r, ?_, hb⟩
  have : num ≠ 0 := by omega
  simp [marionIntegrate, this, hr]

/-- **C62**: a horizontal surface sees no ground. -/
theorem marion_ground_horizontal (f : Fl → Fl) (g : ℝ → ℝ) (hf : ∀ x : ℝ, 0 ≤ x → x ≤ 180 → f (fin x) = fin (g x))
    (num : ℕ) (hn : 0 < num) : marionIntegrate f (fin 0) "ground" (some num) = .ok (fin 0) := by
  have hi : marionIntegrate f (fin 0) "ground" (some num) = .ok (marionFd f (fin 0) "ground" num) := by
    simp [marionIntegrate, hn.ne']
  rw [hi, Fd_eval f g hf]
  have hz : ((marionCells "ground" num).map (cellWeight (rad 0) (π / num))).sum = 0 := by
    apply List.sum_eq_zero
    intro x hx
    obtain ⟨c, hc, rfl⟩ := List.mem_map.mp hx
    obtain ⟨h0, h1, hn, hm⟩ := cells_phi hc
    have hn' : (0 : ℝ) < num := by exact_mod_cast hn
    have hp := Real.pi_pos
    have hai : 0 < π / num := by positivity
    have hm' : π / 2 ≤ c.1 := by simpa [regionMask] using hm
    have : Real.cos (c.1 + 0.5 * (π / num)) ≤ 0 := by
      apply Real.cos_nonpos_of_pi_div_two_le_of_le
      · linarith
      · linarith
    simp only [cellWeight, cosIncidence, rad, zero_mul, Real.cos_zero, Real.sin_zero, one_mul, add_zero, not_lt.mpr this,
      if_false]
  rw [if_pos hz]

example := marion_ground_horizontal (fun _ => fin 0.9) (fun _ => 0.9) (fun _ _ _ => rfl) 180 (by norm_num)

private theorem range_perm (n : ℕ) : (List.range n).Perm ((List.range n).map fun i => n - 1 - i) := by
  apply (List.perm_ext_iff_of_nodup List.nodup_range ?_).mpr
  · intro a
    simp only [List.mem_range, List.mem_map]
    constructor
    · intro h; exact ⟨n - 1 - a, by omega, by omega⟩
    · rintro ⟨b, hb, rfl⟩; omega
  · apply List.Nodup.map_on _ List.nodup_range
    intro x hx y hy h
    simp only [List.mem_range] at hx hy
    omega

/-- **C62**: turning the surface over exchanges sky and ground: the ground modifier at tilt `t` is the sky modifier at
`180 - t`, for every modifier function and number of increments. -/
theorem marion_swap (f : Fl → Fl) (tilt : ℝ) (num : ℕ) (hn : 0 < num) :
    marionIntegrate f (fin (180 - tilt)) "ground" (some num) = marionIntegrate f (fin tilt) "sky" (some num) := by
  have hp := Real.pi_pos
  have hn' : (0 : ℝ) < num := by exact_mod_cast hn
  set ai := π / num with hai
  have hnai : num * ai = π := by rw [hai]; field_simp
  have hr : radians (fin (180 - tilt)) = fin (π - rad tilt) := by
    simp only [radians_fin, rad]; congr 1; ring
  have hr' : radians (fin tilt) = fin (rad tilt) := rfl
  -- the reflected cell gives the same contribution
  have hcell : ∀ i < num, ∀ psi : ℝ,
      marionCell f (fin (π - rad tilt)) ai (((num - 1 - i : ℕ) : ℝ) * ai, psi) =
        marionCell f (fin (rad tilt)) ai ((i : ℝ) * ai, psi) := by
    intro i hi psi
    have hc : ((num - 1 - i : ℕ) : ℝ) * ai = π - ((i : ℝ) * ai + ai) := by
      have : ((num - 1 - i : ℕ) : ℝ) = num - 1 - i := by
        rw [Nat.cast_sub (by omega), Nat.cast_sub (by omega)]; simp
      rw [this, ← hnai]; ring
    have e1 : Real.cos (((num - 1 - i : ℕ) : ℝ) * ai) = -Real.cos ((i : ℝ) * ai + ai) := by rw [hc, Real.cos_pi_sub]
    have e2 : Real.cos (((num - 1 - i : ℕ) : ℝ) * ai + ai) = -Real.cos ((i : ℝ) * ai) := by
      rw [hc, show π - ((i : ℝ) * ai + ai) + ai = π - (i : ℝ) * ai by ring, Real.cos_pi_sub]
    have e3 : ((num - 1 - i : ℕ) : ℝ) * ai + 0.5 * ai = π - ((i : ℝ) * ai + 0.5 * ai) := by rw [hc]; ring
    simp only [marionCell, e1, e2, e3, Real.cos_pi_sub, Real.sin_pi_sub, cos_fin, sin_fin, fin_mul, fin_add]
    rw [show -Real.cos (rad tilt) * -Real.cos ((i : ℝ) * ai + 0.5 * ai) =
      Real.cos (rad tilt) * Real.cos ((i : ℝ) * ai + 0.5 * ai) by ring,
      show -Real.cos ((i : ℝ) * ai + ai) - -Real.cos ((i : ℝ) * ai) =
      Real.cos ((i : ℝ) * ai) - Real.cos ((i : ℝ) * ai + ai) by ring]
  have hmask : ∀ i < num, (regionMask "ground" ai (((num - 1 - i : ℕ) : ℝ) * ai) ↔ regionMask "sky" ai ((i : ℝ) * ai)) := by
    intro i hi
    have hc : ((num - 1 - i : ℕ) : ℝ) * ai = π - ((i : ℝ) * ai + ai) := by
      have : ((num - 1 - i : ℕ) : ℝ) = num - 1 - i := by
        rw [Nat.cast_sub (by omega), Nat.cast_sub (by omega)]; simp
      rw [this, ← hnai]; ring
    simp only [regionMask, if_true, hc]
    rw [if_neg (by decide), if_neg (by decide)]
    constructor <;> intro h <;> linarith
  have hcells : ∀ region, marionCells region num =
      ((List.range num).filter fun (i : ℕ) => decide (regionMask region ai ((i : ℝ) * ai))).flatMap
        fun (i : ℕ) => (List.range (2 * num)).map fun (j : ℕ) => ((i : ℝ) * ai, (j : ℝ) * ai) := by
    intro region
    simp only [marionCells, List.filter_map, List.flatMap_map]
    rfl
  have hperm : ((marionCells "ground" num).map (marionCell f (fin (π - rad tilt)) ai)).Perm
      ((marionCells "sky" num).map (marionCell f (fin (rad tilt)) ai)) := by
    rw [hcells, hcells, List.map_flatMap, List.map_flatMap]
    have p1 := ((range_perm num).filter fun (i : ℕ) => decide (regionMask "ground" ai ((i : ℝ) * ai))).flatMap_right
      fun (i : ℕ) => List.map (marionCell f (fin (π - rad tilt)) ai)
        ((List.range (2 * num)).map fun (j : ℕ) => ((i : ℝ) * ai, (j : ℝ) * ai))
    refine p1.trans ?_
    rw [List.filter_map, List.flatMap_map]
    have e : (List.range num).filter ((fun (i : ℕ) => decide (regionMask "ground" ai ((i : ℝ) * ai))) ∘ fun i => num - 1 - i) =
        (List.range num).filter fun (i : ℕ) => decide (regionMask "sky" ai ((i : ℝ) * ai)) := by
      apply List.filter_congr
      intro i hi
      simp only [Function.comp, hmask i (List.mem_range.mp hi)]
    rw [e]
    apply List.Perm.of_eq
    apply List.flatMap_congr
    intro i hi
    have hi' : i < num := List.mem_range.mp (List.mem_filter.mp hi).1
    rw [List.map_map, List.map_map]
    apply List.map_congr_left
    intro j _
    exact hcell i hi' _
  have hsum1 := sum_perm (hperm.map Prod.fst)
  have hsum2 := sum_perm (hperm.map Prod.snd)
  have : marionFd f (fin (180 - tilt)) "ground" num = marionFd f (fin tilt) "sky" num := by
    simp only [marionFd, hr, hr', ← hai, hsum1, hsum2, isfinite_fin]
  simp [marionIntegrate, hn.ne', this]

example (f) := marion_swap f 30 180 (by norm_num)

/-- **C62**: a NaN tilt gives NaN (if the region is not empty and the modifier is NaN for NaN). -/
theorem marion_nan (f : Fl → Fl) (hf : f nan = nan) (num : ℕ) (hn : 2 ≤ num) :
    marionIntegrate f nan "sky" (some num) = .ok nan := by
  have hp := Real.pi_pos
  have hn' : (2 : ℝ) ≤ num := by exact_mod_cast hn
  have hb : radians nan = nan := rfl
  have hcell : ∀ c, marionCell f nan (π / num) c = (nan, fin 0) := by
    intro c; simp [marionCell, hf, npwhere]
  have hne : marionCells "sky" num ≠ [] := by
    apply List.ne_nil_of_mem (a := (0, 0))
    simp only [marionCells, List.mem_flatMap, List.mem_filter, List.mem_map, List.mem_range, decide_eq_true_eq]
    refine ⟨0, ⟨⟨0, by omega, by simp⟩, ?_⟩, 0, by omega, by simp⟩
    simp only [regionMask, if_true, zero_add]
    exact div_le_div_of_nonneg_left hp.le (by norm_num) hn'
  have hsum : Fl.sum (((marionCells "sky" num).map (marionCell f nan (π / num))).map Prod.fst) = nan := by
    obtain ⟨c, cs, h⟩ := List.exists_cons_of_ne_nil hne
    have nanfold : ∀ l : List Fl, l.foldl (· + ·) nan = nan := by
      intro l; induction l with
      | nil => rfl
      | cons a l ih => simp only [List.foldl_cons, nan_add]; exact ih
    rw [h]
    simp only [List.map_cons, Fl.sum, List.foldl_cons, hcell, add_nan]
    exact nanfold _
  have : marionFd f nan "sky" num = nan := by
    simp only [marionFd, hb, hsum, nan_div, not_isfinite_nan, not_false_eq_true, or_true, npwhere, if_true]
  have h0 : num ≠ 0 := by omega
  simp [marionIntegrate, h0, this]

example := marion_nan (fun x => 1 - x) (by simp) 180 (by norm_num)

/-- **C62**: `marion_diffuse` accepts exactly the five documented models, and returns the sky, horizon and ground
integrals of the selected model with the default grids. -/
theorem marionDiffuse_contract (iam : String → Fl → Fl) (model : String) (tilt : Fl) :
    (model ∉ ["physical", "ashrae", "sapm", "martin_ruiz", "schlick"] →
      marionDiffuse iam model tilt = .error .valueError) ∧
    (model ∈ ["physical", "ashrae", "sapm", "martin_ruiz", "schlick"] → ∃ s h g,
      marionIntegrate (iam model) tilt "sky" (some 180) = .ok s ∧
      marionIntegrate (iam model) tilt "horizon" (some 1800) = .ok h ∧
      marionIntegrate (iam model) tilt "ground" (some 180) = .ok g ∧
      marionDiffuse iam model tilt = .ok [("sky", s), ("horizon", h), ("ground", g)]) := by
  have hk : ∀ m, (m ∉ marionModels) = (m ∉ ["physical", "ashrae", "sapm", "martin_ruiz", "schlick"]) := fun m => rfl
  constructor
  · intro h
    simp only [marionDiffuse, hk, h, not_false_eq_true, if_true]
  · intro h
    refine ⟨marionFd (iam model) tilt "sky" 180, marionFd (iam model) tilt "horizon" 1800,
      marionFd (iam model) tilt "ground" 180, ?_, ?_, ?_, ?_⟩
    · simp [marionIntegrate]
    · simp [marionIntegrate]
    · simp [marionIntegrate]
    · simp only [marionDiffuse, hk, h, not_true_eq_false, if_false]
      simp [marionIntegrate, defaultNum]

/-- The hypotheses are met by a constant modifier: its sky average at 30 degrees is that constant. -/
example : ∃ r, marionIntegrate (fun _ => fin 0.9) (fin 30) "sky" (some 180) = .ok (fin r) ∧ 0.9 ≤ r ∧ r ≤ 0.9 :=
  marion_sky _ (fun _ => 0.9) (fun _ _ _ => rfl) 0.9 0.9 (fun _ _ _ => ⟨le_rfl, le_rfl⟩) 30 (by norm_num) (by norm_num)
    180 (by norm_num)

end Pvlib.Props.IamMarion
end
