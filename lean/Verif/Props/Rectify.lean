import Verif.Model.IvUtils
import Mathlib.Data.List.Sort
import Mathlib.Algebra.Order.BigOperators.Group.List
import Mathlib.Tactic.IntervalCases

/-! # C141: `rectify_iv_curve`

Claim: whatever the order of the points, the curve returned lies in the first quadrant, has no NaN, is strictly
increasing in voltage, has exactly the (rounded) voltages of the valid input points, and carries at each voltage the
average of the currents measured there.  It depends only on the multiset of points, and rectifying twice changes
nothing. -/

noncomputable section
open scoped Classical
open Real
namespace Pvlib.Props.Rectify
open Fl Pvlib.IvTools

/-! ## Specification -/

/-- The valid points: both coordinates are non-negative numbers. -/
def valid : List (Fl × Fl) → List (ℝ × ℝ)
  | [] => []
  | (fin v, fin i) :: ps => if 0 ≤ v ∧ 0 ≤ i then (v, i) :: valid ps else valid ps
  | _ :: ps => valid ps

/-- The currents measured at voltage `u`. -/
def currentsAt (pts : List (ℝ × ℝ)) (u : ℝ) : List ℝ := (pts.filter (fun p => p.1 = u)).map Prod.snd

/-- The arithmetic mean. -/
def mean (xs : List ℝ) : ℝ := xs.sum / xs.length

/-- The voltage a point is assigned to: rounded to `d` decimals if asked, else its own. -/
def roundV (decimals : Option ℕ) (v : ℝ) : ℝ :=
  match decimals with
  | none => v
  | some d => match npRound d (fin v) with | fin r => r | _ => v

/-- No coordinate is infinite (NaN allowed). -/
def NoInf (pts : List (Fl × Fl)) : Prop := ∀ p ∈ pts, p.1 ≠ pinf ∧ p.2 ≠ pinf

/-! ## Reduction to real lists -/

private abbrev F : ℝ × ℝ → Fl × Fl := fun p => (fin p.1, fin p.2)

private theorem filter_valid (pts : List (Fl × Fl)) (h : NoInf pts) :
    (pts.filter (fun p => ¬ isnan p.1 ∧ ¬ isnan p.2)).filter (fun p => 0 ≤ p.1 ∧ 0 ≤ p.2) = (valid pts).map F := by
  induction pts with
  | nil => rfl
  | cons p ps ih =>
      have hps : NoInf ps := fun q hq => h q (List.mem_cons_of_mem _ hq)
      have hp := h p List.mem_cons_self
      obtain ⟨v, i⟩ := p
      have ih := ih hps
      simp only [List.filter_filter] at ih ⊢
      rw [List.filter_cons]
      cases v <;> cases i <;> simp_all [valid]
      split_ifs <;> simp_all

private def rp (decimals : Option ℕ) (p : ℝ × ℝ) : ℝ × ℝ := (roundV decimals p.1, p.2)

private theorem npRound_fin (d : ℕ) (v : ℝ) : npRound d (fin v) = fin (roundV (some d) v) := rfl

/-- The real-number version of the algorithm. -/
private def realRect (vs : List (ℝ × ℝ)) : List (ℝ × ℝ) :=
  (((vs.map Prod.fst).dedup).mergeSort (fun a b => decide (a ≤ b))).map
    (fun u => (u, mean (currentsAt vs u)))

private theorem mem_fst {vs : List (ℝ × ℝ)} {u : ℝ} :
    u ∈ ((vs.map Prod.fst).dedup).mergeSort (fun a b => decide (a ≤ b)) ↔ ∃ p ∈ vs, p.1 = u := by
  rw [List.mem_mergeSort, List.mem_dedup, List.mem_map]

private theorem currents_perm {vs ws : List (ℝ × ℝ)} (h : vs.Perm ws) (u : ℝ) :
    mean (currentsAt vs u) = mean (currentsAt ws u) := by
  have : (currentsAt vs u).Perm (currentsAt ws u) := (h.filter _).map _
  unfold mean
  rw [this.sum_eq, this.length_eq]

private theorem realRect_perm {vs ws : List (ℝ × ℝ)} (h : vs.Perm ws) : realRect vs = realRect ws := by
  have hs : ((vs.map Prod.fst).dedup).mergeSort (fun a b => decide (a ≤ b)) =
      ((ws.map Prod.fst).dedup).mergeSort (fun a b => decide (a ≤ b)) := by
    apply List.Perm.eq_of_pairwise (le := fun a b : ℝ => a ≤ b)
    · intro a b _ _ h1 h2; exact le_antisymm h1 h2
    · exact List.pairwise_mergeSort' (· ≤ ·) _
    · exact List.pairwise_mergeSort' (· ≤ ·) _
    · exact (List.mergeSort_perm _ _).trans (((h.map _).dedup).trans (List.mergeSort_perm _ _).symm)
  unfold realRect
  rw [hs]
  exact List.map_congr_left fun u _ => by rw [currents_perm h]

private theorem tail_eq (vs : List (ℝ × ℝ)) :
    ((((vs.map F).map Prod.fst).dedup).mergeSort (fun a b => decide (a ≤ b))).map (fun u =>
      (groupMean (((vs.map F).filter (fun (p : Fl × Fl) => p.1 = u)).map Prod.fst),
        groupMean (((vs.map F).filter (fun (p : Fl × Fl) => p.1 = u)).map Prod.snd))) = (realRect vs).map F := by
  have h1 : (vs.map F).map Prod.fst = (vs.map Prod.fst).map fin := by simp [F]
  rw [h1, List.dedup_map_of_injective (fun a b hab => by simpa using hab),
    ← List.map_mergeSort (r := fun a b : ℝ => decide (a ≤ b)) (by intro a _ b _; exact decide_eq_decide.mpr (by simp))]
  unfold realRect
  rw [List.map_map, List.map_map]
  apply List.map_congr_left
  intro u hu
  obtain ⟨p, hp, hpu⟩ := mem_fst.mp hu
  have hg : (vs.map F).filter (fun (p : Fl × Fl) => p.1 = fin u) = (vs.filter (fun p => p.1 = u)).map F := by
    rw [List.filter_map]
    congr 1
    apply List.filter_congr
    intro q _
    simp [F]
  simp only [Function.comp]
  rw [hg]
  have hlen : ((vs.filter (fun p => p.1 = u)).length : ℝ) ≠ 0 := by
    have : p ∈ vs.filter (fun p => p.1 = u) := by simp [hp, hpu]
    have := List.length_pos_of_mem this
    positivity
  have e1 : ((vs.filter (fun p => p.1 = u)).map F).map Prod.fst = ((vs.filter (fun p => p.1 = u)).map Prod.fst).map fin := by
    simp [F]
  have e2 : ((vs.filter (fun p => p.1 = u)).map F).map Prod.snd = (currentsAt vs u).map fin := by
    simp [F, currentsAt]
  rw [e1, e2]
  unfold groupMean
  rw [sum_fin, sum_fin]
  have e3 : ((vs.filter (fun p => p.1 = u)).map Prod.fst) = List.replicate (vs.filter (fun p => p.1 = u)).length u := by
    rw [List.eq_replicate_iff]
    refine ⟨by simp, ?_⟩
    intro b hb
    simp only [List.mem_map, List.mem_filter, decide_eq_true_eq] at hb
    obtain ⟨q, ⟨_, hq⟩, rfl⟩ := hb
    exact hq
  rw [e3, List.sum_replicate]
  simp only [List.length_map, List.length_replicate, currentsAt, nsmul_eq_mul]
  rw [fin_div hlen, fin_div hlen, mul_div_assoc, mul_div_cancel₀ _ hlen]
  simp [F, mean, currentsAt]

private theorem rect_eq (pts : List (Fl × Fl)) (h : NoInf pts) (decimals : Option ℕ) :
    rectifyIvCurve pts decimals = (realRect ((valid pts).map (rp decimals))).map F := by
  unfold rectifyIvCurve
  simp only
  rw [filter_valid pts h]
  rw [← List.map_mergeSort (r := fun p q : ℝ × ℝ => decide (p.1 < q.1 ∨ (p.1 = q.1 ∧ q.2 ≤ p.2)))
    (by intro a _ b _; simp [eqv_fin])]
  set srt := (valid pts).mergeSort (fun p q : ℝ × ℝ => decide (p.1 < q.1 ∨ (p.1 = q.1 ∧ q.2 ≤ p.2))) with hsrt
  have hperm : (srt.map (rp decimals)).Perm ((valid pts).map (rp decimals)) := (List.mergeSort_perm _ _).map _
  rw [← realRect_perm hperm, ← tail_eq]
  cases decimals with
  | none =>
      have : srt.map (rp none) = srt := by
        have e : rp none = id := by funext p; rfl
        rw [e, List.map_id]
      rw [this]
  | some d =>
      have : (srt.map F).map (fun (p : Fl × Fl) => (npRound d p.1, p.2)) = (srt.map (rp (some d))).map F := by
        simp [rp, F, npRound_fin]
      simp only [this]

private theorem mem_valid {pts : List (Fl × Fl)} {v i : ℝ} :
    (v, i) ∈ valid pts ↔ (fin v, fin i) ∈ pts ∧ 0 ≤ v ∧ 0 ≤ i := by
  induction pts with
  | nil => simp [valid]
  | cons p ps ih =>
      obtain ⟨a, b⟩ := p
      cases a <;> cases b <;> simp_all [valid]
      split_ifs with h
      · simp_all
        constructor
        · rintro (⟨rfl, rfl⟩ | h')
          · exact ⟨Or.inl ⟨rfl, rfl⟩, h⟩
          · exact ⟨Or.inr h'.1, h'.2⟩
        · rintro ⟨h1 | h1, h2⟩
          · exact Or.inl h1
          · exact Or.inr ⟨h1, h2⟩
      · rw [ih]
        constructor
        · rintro ⟨h1, h2⟩; exact ⟨Or.inr h1, h2⟩
        · rintro ⟨⟨rfl, rfl⟩ | h1, h2⟩
          · exact absurd h2 h
          · exact ⟨h1, h2⟩

/-! ## The theorems -/

/-- **C141.**  The points returned are exactly: for every voltage `u` to which some valid input point is assigned,
one point `(u, average of the currents of the valid points assigned to u)`. -/
theorem rectified_points (pts : List (Fl × Fl)) (h : NoInf pts) (decimals : Option ℕ) (q : Fl × Fl) :
    q ∈ rectifyIvCurve pts decimals ↔
      ∃ u : ℝ, (∃ v i : ℝ, (fin v, fin i) ∈ pts ∧ 0 ≤ v ∧ 0 ≤ i ∧ roundV decimals v = u) ∧
        q = (fin u, fin (mean (((valid pts).filter (fun p => roundV decimals p.1 = u)).map Prod.snd))) := by
  rw [rect_eq pts h, realRect, List.map_map, List.mem_map]
  have hcur : ∀ u, currentsAt ((valid pts).map (rp decimals)) u =
      ((valid pts).filter (fun p => roundV decimals p.1 = u)).map Prod.snd := by
    intro u
    simp only [currentsAt, List.filter_map, List.map_map]
    rfl
  constructor
  · rintro ⟨u, hu, rfl⟩
    obtain ⟨p, hp, hpu⟩ := mem_fst.mp hu
    obtain ⟨⟨v, i⟩, hvi, rfl⟩ := List.mem_map.mp hp
    obtain ⟨h1, h2, h3⟩ := mem_valid.mp hvi
    refine ⟨u, ⟨v, i, h1, h2, h3, hpu⟩, ?_⟩
    simp only [Function.comp, hcur]
  · rintro ⟨u, ⟨v, i, h1, h2, h3, h4⟩, rfl⟩
    refine ⟨u, mem_fst.mpr ⟨rp decimals (v, i), List.mem_map.mpr ⟨(v, i), mem_valid.mpr ⟨h1, h2, h3⟩, rfl⟩, h4⟩, ?_⟩
    simp only [Function.comp, hcur]

/-- The voltages returned are strictly increasing: sorted, and none is repeated. -/
theorem rectified_increasing (pts : List (Fl × Fl)) (h : NoInf pts) (decimals : Option ℕ) :
    ((rectifyIvCurve pts decimals).map Prod.fst).Pairwise (· < ·) := by
  rw [rect_eq pts h, realRect]
  simp only [List.map_map]
  rw [List.pairwise_map]
  set us := ((((valid pts).map (rp decimals)).map Prod.fst).dedup).mergeSort (fun a b => decide (a ≤ b)) with hus
  have h1 : us.Pairwise (· ≤ ·) := List.pairwise_mergeSort' (· ≤ ·) _
  have h2 : us.Nodup := (List.mergeSort_perm _ _).nodup_iff.mpr (List.nodup_dedup _)
  have h3 : us.Pairwise (fun a b => a ≤ b ∧ a ≠ b) := List.Pairwise.and h1 h2
  rw [List.map_map] at hus
  rw [← hus]
  refine h3.imp ?_
  rintro a b ⟨h4, h5⟩
  simpa [F] using lt_of_le_of_ne h4 h5

private theorem roundV_nonneg (decimals : Option ℕ) (v : ℝ) (hv : 0 ≤ v) : 0 ≤ roundV decimals v := by
  cases decimals with
  | none => exact hv
  | some d =>
    simp only [roundV, npRound]
    have hy : 0 ≤ v * 10 ^ d := by positivity
    have hf : 0 ≤ ⌊v * 10 ^ d⌋ := Int.floor_nonneg.mpr hy
    have hr : 0 ≤ round (v * 10 ^ d) := by rw [round_eq]; exact Int.floor_nonneg.mpr (by linarith)
    apply div_nonneg _ (by positivity)
    rw [← Int.cast_zero, Int.cast_le]
    split_ifs <;> omega

/-- Nothing returned is NaN, infinite or negative. -/
theorem rectified_first_quadrant (pts : List (Fl × Fl)) (h : NoInf pts) (decimals : Option ℕ) (q : Fl × Fl)
    (hq : q ∈ rectifyIvCurve pts decimals) : ∃ v i : ℝ, q = (fin v, fin i) ∧ 0 ≤ v ∧ 0 ≤ i := by
  obtain ⟨u, ⟨v, i, _, h2, _, rfl⟩, rfl⟩ := (rectified_points pts h decimals q).mp hq
  refine ⟨_, _, rfl, roundV_nonneg _ _ h2, ?_⟩
  apply div_nonneg _ (Nat.cast_nonneg _)
  apply List.sum_nonneg
  intro x hx
  simp only [List.mem_map, List.mem_filter] at hx
  obtain ⟨⟨a, b⟩, ⟨hp, _⟩, rfl⟩ := hx
  exact (mem_valid.mp hp).2.2

private theorem valid_perm {pts pts' : List (Fl × Fl)} (hp : pts.Perm pts') (h : NoInf pts) :
    (valid pts).Perm (valid pts') := by
  have h' : NoInf pts' := fun p hq => h p (hp.mem_iff.mpr hq)
  have e : ((valid pts).map F).Perm ((valid pts').map F) := by
    rw [← filter_valid pts h, ← filter_valid pts' h']
    exact (hp.filter _).filter _
  exact (List.map_perm_map_iff (by intro a b hab; simpa [F, Prod.ext_iff] using hab)).mp e

/-- The result depends only on the multiset of points: the order of the measurements is irrelevant. -/
theorem rectified_order_irrelevant (pts pts' : List (Fl × Fl)) (hp : pts.Perm pts') (h : NoInf pts)
    (decimals : Option ℕ) : rectifyIvCurve pts decimals = rectifyIvCurve pts' decimals := by
  have h' : NoInf pts' := fun p hq => h p (hp.mem_iff.mpr hq)
  rw [rect_eq pts h, rect_eq pts' h', realRect_perm ((valid_perm hp h).map _)]

example := rectified_order_irrelevant [(fin 2, fin 4), (nan, fin 5)] [(nan, fin 5), (fin 2, fin 4)] (List.Perm.swap _ _ _)
  (by simp [NoInf]) (some 3)

private theorem valid_F (vs : List (ℝ × ℝ)) (h : ∀ p ∈ vs, 0 ≤ p.1 ∧ 0 ≤ p.2) : valid (vs.map F) = vs := by
  induction vs with
  | nil => rfl
  | cons p ps ih =>
    have hp := h p List.mem_cons_self
    simp only [List.map_cons, valid]
    rw [if_pos hp, ih (fun q hq => h q (List.mem_cons_of_mem _ hq))]

private theorem realRect_idem (vs : List (ℝ × ℝ)) : realRect (realRect vs) = realRect vs := by
  set us := ((vs.map Prod.fst).dedup).mergeSort (fun a b => decide (a ≤ b)) with hus
  have h1 : us.Pairwise (· ≤ ·) := List.pairwise_mergeSort' (· ≤ ·) _
  have h2 : us.Nodup := (List.mergeSort_perm _ _).nodup_iff.mpr (List.nodup_dedup _)
  have hr : realRect vs = us.map (fun u => (u, mean (currentsAt vs u))) := rfl
  have hf : (realRect vs).map Prod.fst = us := by
    rw [hr, List.map_map]
    exact List.map_id' us
  have hs : (((realRect vs).map Prod.fst).dedup).mergeSort (fun a b => decide (a ≤ b)) = us := by
    rw [hf, List.Nodup.dedup h2]
    exact List.mergeSort_eq_self (r := fun a b : ℝ => a ≤ b) h1
  conv_lhs => rw [realRect, hs]
  rw [hr]
  apply List.map_congr_left
  intro u hu
  have hone : (us.map (fun u => (u, mean (currentsAt vs u)))).filter (fun p => p.1 = u) =
      [(u, mean (currentsAt vs u))] := by
    rw [List.filter_map]
    have : us.filter ((fun p : ℝ × ℝ => decide (p.1 = u)) ∘ fun u => (u, mean (currentsAt vs u))) = [u] := by
      have e : us.filter (fun a => a == u) = [u] := by
        rw [List.filter_beq, List.count_eq_one_of_mem h2 hu, List.replicate_one]
      rw [← e]
      apply List.filter_congr
      intro a _
      by_cases hau : a = u <;> simp [Function.comp, hau]
    rw [this]; rfl
  rw [currentsAt, hone]
  simp [mean]

/-- Rectifying a rectified curve changes nothing. -/
theorem rectified_idempotent (pts : List (Fl × Fl)) (h : NoInf pts) (decimals : Option ℕ) :
    rectifyIvCurve (rectifyIvCurve pts decimals) none = rectifyIvCurve pts decimals := by
  have hq := rectified_first_quadrant pts h decimals
  have hni : NoInf (rectifyIvCurve pts decimals) := by
    intro p hp
    obtain ⟨v, i, rfl, _⟩ := hq p hp
    simp
  rw [rect_eq _ hni]
  conv_rhs => rw [rect_eq pts h]
  conv_lhs => rw [rect_eq pts h]
  have hv : valid ((realRect ((valid pts).map (rp decimals))).map F) = realRect ((valid pts).map (rp decimals)) := by
    apply valid_F
    intro p hp
    obtain ⟨v, i, hvi, h1, h2⟩ := hq (F p) (by rw [rect_eq pts h]; exact List.mem_map_of_mem hp)
    simp only [F, Prod.mk.injEq, fin_inj] at hvi
    rw [hvi.1, hvi.2]
    exact ⟨h1, h2⟩
  rw [hv]
  have : ∀ l : List (ℝ × ℝ), l.map (rp none) = l := by
    intro l
    have : rp none = id := by funext p; rfl
    rw [this, List.map_id]
  rw [this, realRect_idem]

example := rectified_idempotent [(fin 2, fin 4), (nan, fin 5)] (by simp [NoInf]) (some 3)

/-- What rounding does: with `decimals = d`, the voltage is an integer multiple of `10⁻ᵈ` at distance at most half of
that from the measured one; without `decimals` it is the measured one. -/
theorem roundV_spec (d : ℕ) (v : ℝ) :
    roundV none v = v ∧ (∃ k : ℤ, roundV (some d) v = k / 10 ^ d) ∧ |roundV (some d) v - v| ≤ 1 / 2 / 10 ^ d := by
  refine ⟨rfl, ⟨_, rfl⟩, ?_⟩
  simp only [roundV, npRound]
  have hp : (0 : ℝ) < 10 ^ d := by positivity
  set y := v * 10 ^ d with hy
  have hv : v = y / 10 ^ d := by rw [hy]; field_simp
  rw [hv, ← sub_div, abs_div, abs_of_pos hp]
  apply div_le_div_of_nonneg_right _ hp.le
  split_ifs with h1 h2
  · have := Int.floor_add_fract y
    rw [abs_le]; constructor <;> linarith
  · have := Int.floor_add_fract y
    push_cast
    rw [abs_le]; constructor <;> linarith
  · rw [abs_sub_comm]; exact abs_sub_round y

/-- A concrete curve: a NaN point and a negative point are dropped, the two points at 2 V are averaged, the rest
sorted. -/
example : rectifyIvCurve [(fin 2, fin 4), (fin 1, fin 5), (nan, fin 3), (fin 2, fin 2), (fin 3, fin (-1))] none =
    [(fin 1, fin 5), (fin 2, fin 3)] := by
  have hni : NoInf [(fin 2, fin 4), (fin 1, fin 5), (nan, fin 3), (fin 2, fin 2), (fin 3, fin (-1))] := by
    intro p hp; simp at hp; rcases hp with rfl | rfl | rfl | rfl | rfl <;> simp
  have hv : valid [(fin 2, fin 4), (fin 1, fin 5), (nan, fin 3), (fin 2, fin 2), (fin 3, fin (-1))] =
      [(2, 4), (1, 5), (2, 2)] := by
    simp [valid]
  apply List.Perm.eq_of_pairwise (le := fun p q : Fl × Fl => p.1 < q.1)
  · intro a b _ _ h1 h2
    exfalso
    obtain ⟨a, _⟩ := a; obtain ⟨b, _⟩ := b
    cases a <;> cases b <;> simp_all
    linarith
  · have := rectified_increasing _ hni none
    rwa [List.pairwise_map] at this
  · simp
  · rw [List.perm_ext_iff_of_nodup]
    · intro q
      rw [rectified_points _ hni none, hv]
      simp [roundV]
      constructor
      · rintro ⟨u, ⟨i, h1, h2, h3⟩, rfl⟩
        rcases h1 with ⟨rfl, rfl⟩ | ⟨rfl, rfl⟩ | ⟨rfl, rfl⟩ | ⟨rfl, rfl⟩ <;> norm_num [mean]
        linarith
      · rintro (rfl | rfl)
        · exact ⟨1, ⟨5, by norm_num⟩, by norm_num [mean]⟩
        · exact ⟨2, ⟨4, by norm_num⟩, by norm_num [mean]⟩
    · have := rectified_increasing _ hni none
      rw [List.pairwise_map] at this
      refine this.imp ?_
      intro a b hab heq
      rw [heq] at hab
      obtain ⟨b, _⟩ := b
      cases b <;> simp_all
    · simp

end Pvlib.Props.Rectify
