import Verif.Model.PvFunctions
import Verif.Props.Spec

/-! # Properties C80-C83: DC scaling, PVWatts DC, losses, module databases -/

noncomputable section
open scoped Classical
namespace Pvlib.Props.PvLosses
open Fl Pvlib.PvFunctions

/-! ### C80: scaling a module to an array -/

/-- What happens to a column, by its name: voltages are multiplied by the number in series, currents by the number in
parallel, power by both. -/
def columnScale (v c : Fl) : String → Option (Fl → Fl)
  | "v_mp" | "v_oc" => some fun x => x * v
  | "i_mp" | "i_x" | "i_xx" | "i_sc" => some fun x => x * c
  | "p_mp" => some fun x => x * v * c
  | _ => none

private theorem lookup_filterMap (keys : List String) (g : Fl → Fl) (data : Frame) (k : String) :
    (filterMap keys g data).lookup k = if k ∈ keys then (data.lookup k).map (List.map g) else none := by
  induction data with
  | nil => simp [filterMap]
  | cons x data ih =>
    obtain ⟨n, col⟩ := x
    unfold filterMap at ih ⊢
    by_cases hk : n ∈ keys
    · rw [List.filter_cons_of_pos (by simpa using hk), List.map_cons, List.lookup_cons, List.lookup_cons]
      by_cases hkn : k = n
      · subst hkn; simp [hk]
      · have hb : (k == n) = false := beq_false_of_ne hkn
        rw [hb]; exact ih
    · rw [List.filter_cons_of_neg (by simpa using hk), List.lookup_cons]
      by_cases hkn : k = n
      · subst hkn
        rw [ih]; simp [hk]
      · have hb : (k == n) = false := beq_false_of_ne hkn
        rw [hb]; exact ih

private theorem lookup_append' (a b : Frame) (k : String) : (a ++ b).lookup k = (a.lookup k).or (b.lookup k) := by
  induction a with
  | nil => simp
  | cons x a ih =>
    obtain ⟨n, col⟩ := x
    rw [List.cons_append, List.lookup_cons, List.lookup_cons]
    cases k == n
    · exact ih
    · simp

private theorem lookup_scaled (data : Frame) (v c : Fl) (k : String) :
    (filterMap ["v_mp", "v_oc"] (fun x => x * v) data ++ filterMap ["i_mp", "i_x", "i_xx", "i_sc"] (fun x => x * c) data ++
      filterMap ["p_mp"] (fun x => x * v * c) data).lookup k =
      (columnScale v c k).bind fun g => (data.lookup k).map (List.map g) := by
  rw [lookup_append', lookup_append', lookup_filterMap, lookup_filterMap, lookup_filterMap]
  by_cases h1 : k = "v_mp"
  · subst h1; cases data.lookup "v_mp" <;> simp [columnScale]
  by_cases h2 : k = "v_oc"
  · subst h2; cases data.lookup "v_oc" <;> simp [columnScale]
  by_cases h3 : k = "i_mp"
  · subst h3; cases data.lookup "i_mp" <;> simp [columnScale]
  by_cases h4 : k = "i_x"
  · subst h4; cases data.lookup "i_x" <;> simp [columnScale]
  by_cases h5 : k = "i_xx"
  · subst h5; cases data.lookup "i_xx" <;> simp [columnScale]
  by_cases h6 : k = "i_sc"
  · subst h6; cases data.lookup "i_sc" <;> simp [columnScale]
  by_cases h7 : k = "p_mp"
  · subst h7; cases data.lookup "p_mp" <;> simp [columnScale]
  have hn : columnScale v c k = none := by unfold columnScale; split <;> first | rfl | contradiction
  simp [hn, h1, h2, h3, h4, h5, h6, h7]

private theorem lookup_mem {data : Frame} (h : (data.map Prod.fst).Nodup) {p : String × List Fl} (hp : p ∈ data) :
    data.lookup p.1 = some p.2 := by
  induction data with
  | nil => simp at hp
  | cons x data ih =>
    obtain ⟨n, col⟩ := x
    simp only [List.map_cons, List.nodup_cons] at h
    rw [List.lookup_cons]
    rcases List.mem_cons.mp hp with rfl | hp
    · simp
    · have hne : p.1 ≠ n := by
        intro e; exact h.1 (e ▸ List.mem_map_of_mem hp)
      have hb : (p.1 == n) = false := beq_false_of_ne hne
      rw [hb]
      exact ih h.2 hp

/-- **C80**: with known column names the result has the same columns in the same order, each scaled by its own factor. -/
theorem scale_value (data : Frame) (v c : Fl) (hn : (data.map Prod.fst).Nodup)
    (hk : ∀ p ∈ data, (columnScale v c p.1).isSome) :
    scaleVoltageCurrentPower data v c =
      .ok (data.map fun p => (p.1, p.2.map ((columnScale v c p.1).getD id))) := by
  unfold scaleVoltageCurrentPower
  simp only [lookup_scaled]
  have hf : data.find? (fun p => decide (((columnScale v c p.1).bind fun g => (data.lookup p.1).map (List.map g)) = none)) = none := by
    rw [List.find?_eq_none]
    intro p hp
    obtain ⟨g, hg⟩ := Option.isSome_iff_exists.mp (hk p hp)
    simp [hg, lookup_mem hn hp]
  rw [hf]
  simp only
  congr 1
  apply List.map_congr_left
  intro p hp
  obtain ⟨g, hg⟩ := Option.isSome_iff_exists.mp (hk p hp)
  simp [hg, lookup_mem hn hp]

example := scale_value [("p_mp", [200]), ("v_mp", [30])] 2 3 (by decide +kernel) (by
  intro p hp
  simp only [List.mem_cons, List.not_mem_nil, or_false] at hp
  rcases hp with rfl | rfl <;> rfl)

/-- **C80**: a frame with any other column raises KeyError. -/
theorem scale_unknown (data : Frame) (v c : Fl) (hn : (data.map Prod.fst).Nodup)
    (h : ∃ p ∈ data, columnScale v c p.1 = none) :
    ∃ p ∈ data, columnScale v c p.1 = none ∧ scaleVoltageCurrentPower data v c = .error (.keyError p.1) := by
  obtain ⟨p, hp, hc⟩ := h
  · unfold scaleVoltageCurrentPower
    simp only [lookup_scaled]
    cases hf : data.find? (fun p => decide (((columnScale v c p.1).bind fun g => (data.lookup p.1).map (List.map g)) = none)) with
    | none =>
      rw [List.find?_eq_none] at hf
      exact absurd (by simp [hc]) (hf p hp)
    | some q =>
      refine ⟨q, List.mem_of_find?_eq_some hf, ?_, rfl⟩
      have hq := List.find?_some hf
      have hm := lookup_mem hn (List.mem_of_find?_eq_some hf)
      cases hx : columnScale v c q.1 with
      | none => rfl
      | some g => simp [hx, hm] at hq

example := scale_unknown [("p_mp", [200]), ("temp", [30])] 2 3 (by decide +kernel) ⟨("temp", [30]), by simp, rfl⟩

/-- **C80**: an array of `s` modules in series and `r` strings keeps power equal to voltage times current. -/
theorem scale_power {v i s r : ℝ} :
    ∃ fv fi fp, columnScale (fin s) (fin r) "v_mp" = some fv ∧ columnScale (fin s) (fin r) "i_mp" = some fi ∧
      columnScale (fin s) (fin r) "p_mp" = some fp ∧
      fp (fin (v * i)) = fv (fin v) * fi (fin i) ∧ fp (fin (v * i)) = fin (s * r * (v * i)) := by
  refine ⟨_, _, _, rfl, rfl, rfl, ?_, ?_⟩
  · simp only [fin_mul]; congr 1; ring
  · simp only [fin_mul]; congr 1; ring

/-! ### C81: PVWatts DC, losses, ohmic losses -/

/-- The irradiance-dependent error term of Marion's correction. -/
def marion (k G : ℝ) : ℝ := if G ≤ 200 then k * (1 - (1 - G / 200) ^ 4) else k * (1000 - G) / 800

/-- **C81**: PVWatts DC power. -/
theorem pvwatts_dc_value (G T p0 gam T0 : ℝ) :
    pvwattsDc (fin G) (fin T) (fin p0) (fin gam) (fin T0) = fin (G / 1000 * p0 * (1 + gam * (T - T0))) ∧
    (∀ k, pvwattsDc (fin G) (fin T) (fin p0) (fin gam) (fin T0) (some (fin k)) =
      fin (max 0 (G / 1000 * p0 * (1 + gam * (T - T0)) - p0 * marion k G))) ∧
    (∀ k, pvwattsDc (fin G) (fin T) (fin p0) (fin gam) (fin T0) (some (fin k)) true =
      fin (max 0 (G / 1000 * p0 * (1 + gam * (T - T0)) - p0 * if 1000 ≤ G then 0 else marion k G))) := by
  have e0 : fin G * fin 0.001 * fin p0 * (1 + fin gam * (fin T - fin T0)) = fin (G / 1000 * p0 * (1 + gam * (T - T0))) := by
    simp only [one_eq, fin_sub, fin_mul, fin_add]
    congr 1
    rw [show (0.001 : ℝ) = 1 / 1000 by norm_num]; ring
  have e1 : ∀ k : ℝ, npwhere (fin G ≤ 200) (fin k * (1 - (1 - fin G / 200) ^ 4)) (fin k * (1000 - fin G) / (1000 - 200)) =
      fin (marion k G) := by
    intro k
    simp only [one_eq, ofNat_eq, fin_sub, fin_le]
    rw [fin_div (by norm_num), fin_sub, fin_pow, fin_sub, fin_mul, fin_mul, fin_div (by norm_num)]
    by_cases h : G ≤ 200
    · rw [npwhere_pos h, marion, if_pos h]
    · rw [npwhere_neg h, marion, if_neg h]
      congr 2; norm_num
  have e2 : ∀ x : ℝ, npwhere (fin x < 0) 0 (fin x) = fin (max 0 x) := by
    intro x
    simp only [zero_eq, fin_lt]
    by_cases h : x < 0
    · rw [npwhere_pos h, max_eq_left h.le]
    · rw [npwhere_neg h, max_eq_right (not_lt.mp h)]
  refine ⟨?_, fun k => ?_, fun k => ?_⟩
  · simp only [pvwattsDc, e0]
  · simp only [pvwattsDc, e0, e1, Bool.false_eq_true, if_false]
    simp only [fin_mul, fin_sub, e2]
  · have e3 : npwhere ((1000 : Fl) ≤ fin G) 0 (fin (marion k G)) = fin (if 1000 ≤ G then 0 else marion k G) := by
      simp only [ofNat_eq, fin_le, zero_eq]
      by_cases h : 1000 ≤ G
      · rw [npwhere_pos h, if_pos h]
      · rw [npwhere_neg h, if_neg h]
    simp only [pvwattsDc, e0, e1, if_true, e3]
    simp only [fin_mul, fin_sub, e2]

/-- **C81**: the two branches of the correction meet at 200 W/m2; it vanishes at 0 and 1000 W/m2, lies between zero and `k`
between them, and turns into a gain above 1000 W/m2 (unless capped). -/
theorem marion_facts (k : ℝ) (hk : 0 ≤ k) :
    marion k 200 = k ∧ k * (1000 - 200) / 800 = k ∧ marion k 0 = 0 ∧ marion k 1000 = 0 ∧
    (∀ G, 0 ≤ G → G ≤ 1000 → 0 ≤ marion k G ∧ marion k G ≤ k) ∧ (∀ G, 1000 ≤ G → marion k G ≤ 0) ∧
    Continuous (marion k) := by
  refine ⟨by simp [marion], by ring, by simp [marion], by norm_num [marion], fun G h0 h1 => ?_, fun G h => ?_, ?_⟩
  · unfold marion
    split_ifs with h
    · have a1 : 0 ≤ 1 - G / 200 := by linarith
      have a2 : 1 - G / 200 ≤ 1 := by linarith
      have a3 : (1 - G / 200) ^ 4 ≤ 1 := pow_le_one₀ a1 a2
      have a4 : 0 ≤ (1 - G / 200) ^ 4 := by positivity
      exact ⟨mul_nonneg hk (by linarith), by nlinarith⟩
    · push Not at h
      refine ⟨div_nonneg (mul_nonneg hk (by linarith)) (by norm_num), ?_⟩
      rw [div_le_iff₀ (by norm_num)]
      exact mul_le_mul_of_nonneg_left (by linarith) hk
  · unfold marion
    rw [if_neg (by linarith)]
    exact div_nonpos_of_nonpos_of_nonneg (mul_nonpos_of_nonneg_of_nonpos hk (by linarith)) (by norm_num)
  · unfold marion
    apply Continuous.if_le
    · fun_prop
    · fun_prop
    · fun_prop
    · fun_prop
    · rintro G rfl
      norm_num

example := marion_facts 0.02 (by norm_num)

/-- **C81**: at reference conditions PVWatts DC is the nameplate power, with or without correction; it is zero in the dark. -/
theorem pvwatts_dc_reference (p0 gam T0 : ℝ) (h : 0 ≤ p0) (k : Option ℝ) (cap : Bool) :
    pvwattsDc (fin 1000) (fin T0) (fin p0) (fin gam) (fin T0) (k.map fin) cap = fin p0 ∧
    ∀ T, pvwattsDc (fin 0) (fin T) (fin p0) (fin gam) (fin T0) (k.map fin) cap = fin 0 := by
  have m1 : ∀ k, marion k 1000 = 0 := by intro k; norm_num [marion]
  have m0 : ∀ k, marion k 0 = 0 := by intro k; simp [marion]
  have v := pvwatts_dc_value 1000 T0 p0 gam T0
  refine ⟨?_, fun T => ?_⟩
  · cases k with
    | none => simp only [Option.map_none]; cases cap <;> exact v.1.trans (by congr 1; ring)
    | some k =>
      simp only [Option.map_some]
      have e : (1000 : ℝ) / 1000 * p0 * (1 + gam * (T0 - T0)) - p0 * 0 = p0 := by ring
      cases cap
      · rw [v.2.1 k, m1, e, max_eq_right h]
      · rw [v.2.2 k, if_pos le_rfl, e, max_eq_right h]
  · have v := pvwatts_dc_value 0 T p0 gam T0
    cases k with
    | none => simp only [Option.map_none]; cases cap <;> exact v.1.trans (by congr 1; ring)
    | some k =>
      simp only [Option.map_some]
      have e : (0 : ℝ) / 1000 * p0 * (1 + gam * (T - T0)) - p0 * 0 = 0 := by ring
      cases cap
      · rw [v.2.1 k, m0, e, max_self]
      · rw [v.2.2 k, if_neg (by norm_num), m0, e, max_self]

example := pvwatts_dc_reference 5000 (-0.004) 25 (by norm_num) (some 0.02) true

/-- The fraction left after losses in percent. -/
def kept (l : List ℝ) : ℝ := (l.map fun p => 1 - p / 100).prod

private theorem foldl_perf (l : List ℝ) (a : ℝ) :
    (l.map fin).foldl (fun perf p => perf * (1 - p / 100)) (fin a) = fin (a * kept l) := by
  induction l generalizing a with
  | nil => simp [kept]
  | cons x l ih =>
    rw [List.map_cons, List.foldl_cons]
    have : fin a * (1 - fin x / 100) = fin (a * (1 - x / 100)) := by
      rw [ofNat_eq, fin_div (by norm_num), one_eq, fin_sub, fin_mul]
    rw [this, ih]
    congr 1
    simp only [kept, List.map_cons, List.prod_cons]; ring

private theorem kept_bounds (l : List ℝ) (h : ∀ p ∈ l, 0 ≤ p ∧ p ≤ 100) :
    0 ≤ kept l ∧ (∀ p ∈ l, kept l ≤ 1 - p / 100) ∧ kept l ≤ 1 ∧ 1 - l.sum / 100 ≤ kept l := by
  induction l with
  | nil => simp [kept]
  | cons x l ih =>
    have hx := h x List.mem_cons_self
    obtain ⟨i1, i2, i3, i4⟩ := ih fun p hp => h p (List.mem_cons_of_mem _ hp)
    have e : kept (x :: l) = (1 - x / 100) * kept l := by simp [kept]
    have a1 : 0 ≤ 1 - x / 100 := by linarith
    have a2 : 1 - x / 100 ≤ 1 := by linarith
    refine ⟨by rw [e]; positivity, fun p hp => ?_, by rw [e]; nlinarith, ?_⟩
    · rw [e]
      rcases List.mem_cons.mp hp with rfl | hp
      · nlinarith
      · have := i2 p hp; nlinarith
    · rw [e, List.sum_cons]
      have hs : 0 ≤ l.sum := List.sum_nonneg fun p hp => (h p (List.mem_cons_of_mem _ hp)).1
      nlinarith

/-- **C81**: PVWatts losses multiply: the result is `100 (1 - prod (1 - loss/100))`, does not depend on the order of the
losses, and lies between the largest loss and the smaller of 100 and their sum. -/
theorem pvwatts_losses_value (l : List ℝ) :
    pvwattsLosses (l.map fin) = fin (100 * (1 - kept l)) ∧
    (∀ l', l.Perm l' → pvwattsLosses (l'.map fin) = pvwattsLosses (l.map fin)) ∧
    ((∀ p ∈ l, 0 ≤ p ∧ p ≤ 100) →
      (∀ p ∈ l, p ≤ 100 * (1 - kept l)) ∧ 0 ≤ 100 * (1 - kept l) ∧ 100 * (1 - kept l) ≤ 100 ∧ 100 * (1 - kept l) ≤ l.sum) := by
  have v : ∀ l : List ℝ, pvwattsLosses (l.map fin) = fin (100 * (1 - kept l)) := by
    intro l
    unfold pvwattsLosses
    have := foldl_perf l 1
    rw [← one_eq, one_mul] at this
    simp only [this]
    rw [one_eq, ofNat_eq, fin_sub, fin_mul]
    congr 1; ring
  refine ⟨v l, fun l' hp => ?_, fun h => ?_⟩
  · rw [v, v]
    have : kept l' = kept l := (hp.map _).prod_eq.symm
    rw [this]
  · obtain ⟨i1, i2, i3, i4⟩ := kept_bounds l h
    refine ⟨fun p hp => ?_, by linarith, by linarith, by linarith⟩
    have := i2 p hp
    linarith

example := (pvwatts_losses_value [2, 3]).2.2 (by norm_num)

/-- **C81**: the documented default of about 14.1 percent. -/
theorem pvwatts_losses_default : ∃ x, pvwattsLosses pvwattsDefaults = fin x ∧ |x - 14.075660688264469| < 1e-12 := by
  have e : pvwattsDefaults = [2, 3, 0, 2, 2, 0.5, 1.5, 1, 0, 3].map fin := by
    simp only [pvwattsDefaults, List.map_cons, List.map_nil, ofNat_eq, one_eq, zero_eq]
  refine ⟨_, e ▸ (pvwatts_losses_value _).1, ?_⟩
  norm_num [kept, abs_lt]

/-- **C81**: the resistance computed from a percentage loses that percentage of the array's power at its reference
maximum power point. -/
theorem dc_ohmic {vmp imp pct ns np : ℝ} (h : np * imp ≠ 0) :
    ∃ R, dcOhmsFromPercent (fin vmp) (fin imp) (fin pct) (fin ns) (fin np) = fin R ∧
      dcOhmicLosses (fin R) (fin (np * imp)) = fin (pct / 100 * ((ns * vmp) * (np * imp))) ∧
      ∀ i, dcOhmicLosses (fin R) (fin i) = fin (R * i ^ 2) := by
  refine ⟨pct / 100 * (ns * vmp / (np * imp)), ?_, ?_, fun i => ?_⟩
  · simp only [dcOhmsFromPercent, ofNat_eq, fin_mul]
    rw [fin_div (by norm_num), fin_div h, fin_mul]
  · simp only [dcOhmicLosses, fin_mul]
    congr 1
    field_simp
  · simp only [dcOhmicLosses, fin_mul]
    congr 1; ring

example := dc_ohmic (vmp := 38) (imp := 8) (pct := 3) (ns := 10) (np := 2) (by norm_num)

/-! ### C82: combining loss series -/

/-- A series has increasing times. -/
def Sorted (s : TimeSeries) : Prop := s.Pairwise fun p q => p.1 < q.1

/-- **C82**: forward fill: at any time the most recent entry is in force; before the first entry there is none (NaN). -/
theorem ffill_value {s : TimeSeries} (hs : Sorted s) (t : ℝ) :
    (∀ p ∈ s, p.1 ≤ t → (∀ q ∈ s, q.1 ≤ t → q.1 ≤ p.1) → reindexAt .ffill s t = p.2) ∧
    ((∀ p ∈ s, t < p.1) → reindexAt .ffill s t = nan) := by
  constructor
  · intro p hp hpt hmax
    simp only [reindexAt]
    have hl : (s.filter fun q => decide (q.1 ≤ t)).getLast? = some p := by
      have hmem : p ∈ s.filter fun q => decide (q.1 ≤ t) := List.mem_filter.mpr ⟨hp, by simpa using hpt⟩
      obtain ⟨a, b, hab⟩ := List.append_of_mem hmem
      have hb : b = [] := by
        cases b with
        | nil => rfl
        | cons q b =>
          exfalso
          have hq : q ∈ s.filter fun q => decide (q.1 ≤ t) := by rw [hab]; simp
          have hq' := List.mem_filter.mp hq
          have h1 := hmax q hq'.1 (by simpa using hq'.2)
          have h2 : (s.filter fun q => decide (q.1 ≤ t)).Pairwise fun p q => p.1 < q.1 := hs.sublist List.filter_sublist
          rw [hab, List.pairwise_append] at h2
          have := (List.pairwise_cons.mp h2.2.1).1 q List.mem_cons_self
          linarith
      rw [hab, hb]
      simp
    rw [hl]; rfl
  · intro h
    have : (s.filter fun q => decide (q.1 ≤ t)) = [] := by
      rw [List.filter_eq_nil_iff]
      intro p hp
      have := h p hp
      simpa using this
    simp [reindexAt, this]

/-- **C82**: backward fill: the next entry is in force; without filling only exact times have a value. -/
theorem bfill_exact_value {s : TimeSeries} (hs : Sorted s) (t : ℝ) :
    (∀ p ∈ s, t ≤ p.1 → (∀ q ∈ s, t ≤ q.1 → p.1 ≤ q.1) → reindexAt .bfill s t = p.2) ∧
    ((∀ p ∈ s, p.1 < t) → reindexAt .bfill s t = nan) ∧
    (∀ p ∈ s, p.1 = t → reindexAt .exact s t = p.2) ∧ ((∀ p ∈ s, p.1 ≠ t) → reindexAt .exact s t = nan) := by
  have uniq : ∀ p ∈ s, ∀ q ∈ s, p.1 = q.1 → p = q := by
    intro p hp q hq he
    by_contra hne
    have hpw : s.Pairwise fun p q : ℝ × Fl => p.1 ≠ q.1 := hs.imp fun h => h.ne
    haveI : Std.Symm (fun p q : ℝ × Fl => p.1 ≠ q.1) := ⟨fun _ _ h => Ne.symm h⟩
    exact (hpw.forall hp hq hne) he
  refine ⟨fun p hp ht hmin => ?_, fun h => ?_, fun p hp ht => ?_, fun h => ?_⟩
  · simp only [reindexAt]
    cases hf : s.find? fun q => decide (t ≤ q.1) with
    | none =>
      rw [List.find?_eq_none] at hf
      exact absurd (by simpa using ht) (hf p hp)
    | some q =>
      have hq := List.mem_of_find?_eq_some hf
      have hqt : t ≤ q.1 := by simpa using List.find?_some hf
      have h1 := hmin q hq hqt
      have h2 : q.1 ≤ p.1 := by
        rw [List.find?_eq_some_iff_append] at hf
        obtain ⟨-, a, b, hab, hna⟩ := hf
        rw [hab] at hp
        rcases List.mem_append.mp hp with hpa | hpb
        · have := hna p hpa
          simp at this
          linarith
        · rcases List.mem_cons.mp hpb with rfl | hpb
          · exact le_rfl
          · have hs' := hs
            unfold Sorted at hs'
            rw [hab, List.pairwise_append] at hs'
            exact ((List.pairwise_cons.mp hs'.2.1).1 p hpb).le
      rw [uniq p hp q hq (le_antisymm h1 h2)]; rfl
  · have : s.find? (fun q => decide (t ≤ q.1)) = none := by
      rw [List.find?_eq_none]
      intro p hp
      have := h p hp
      simpa using this
    simp [reindexAt, this]
  · simp only [reindexAt]
    cases hf : s.find? fun q => decide (q.1 = t) with
    | none =>
      rw [List.find?_eq_none] at hf
      exact absurd (by simpa using ht) (hf p hp)
    | some q =>
      have hq := List.mem_of_find?_eq_some hf
      have hqt : q.1 = t := by simpa using List.find?_some hf
      rw [uniq p hp q hq (ht.trans hqt.symm)]; rfl
  · have : s.find? (fun q => decide (q.1 = t)) = none := by
      rw [List.find?_eq_none]
      intro p hp
      have := h p hp
      simpa using this
    simp [reindexAt, this]

example := bfill_exact_value (s := [(0, fin 0.1), (2, fin 0.3)]) (by simp [Sorted]) 1

private theorem foldl_combine {α : Type} (losses : List α) (f : α → ℝ) (r : α → Fl) (h : ∀ s ∈ losses, r s = fin (f s)) (a : ℝ) :
    losses.foldl (fun acc loss => acc * (1 - r loss)) (fin a) = fin (a * (losses.map fun s => 1 - f s).prod) := by
  induction losses generalizing a with
  | nil => simp
  | cons x l ih =>
    rw [List.foldl_cons, h x List.mem_cons_self, one_eq, fin_sub, fin_mul, ← one_eq,
      ih (fun s hs => h s (List.mem_cons_of_mem _ hs))]
    congr 1
    rw [List.map_cons, List.prod_cons]; ring

/-- **C82**: at every requested time at which each series has a loss in force, the combined loss is
`1 - prod (1 - loss)`; for losses in [0, 1] it lies between the largest of them and one; the order of the series does not
matter; the index is the requested one. -/
theorem combine_value (index : List ℝ) (losses : List TimeSeries) (fill : Fill) :
    (combineLossFactors index losses fill).map Prod.fst = index ∧
    ∀ (f : TimeSeries → ℝ) (t : ℝ), t ∈ index → (∀ s ∈ losses, reindexAt fill s t = fin (f s)) →
      (t, fin (1 - (losses.map fun s => 1 - f s).prod)) ∈ combineLossFactors index losses fill ∧
      ((∀ s ∈ losses, 0 ≤ f s ∧ f s ≤ 1) → (∀ s ∈ losses, f s ≤ 1 - (losses.map fun s => 1 - f s).prod) ∧
        0 ≤ 1 - (losses.map fun s => 1 - f s).prod ∧ 1 - (losses.map fun s => 1 - f s).prod ≤ 1) ∧
      (∀ losses', losses.Perm losses' → (losses'.map fun s => 1 - f s).prod = (losses.map fun s => 1 - f s).prod) := by
  refine ⟨by simp [combineLossFactors, List.map_map, Function.comp_def], fun f t ht hf => ⟨?_, fun hr => ?_, fun l' hp => ?_⟩⟩
  · unfold combineLossFactors
    refine List.mem_map.mpr ⟨t, ht, ?_⟩
    have := foldl_combine losses f (fun s => reindexAt fill s t) hf 1
    rw [← one_eq, one_mul] at this
    rw [this, one_eq, fin_sub]
  · have hb : ∀ l : List TimeSeries, (∀ s ∈ l, 0 ≤ f s ∧ f s ≤ 1) →
        0 ≤ (l.map fun s => 1 - f s).prod ∧ (l.map fun s => 1 - f s).prod ≤ 1 ∧
        ∀ s ∈ l, (l.map fun s => 1 - f s).prod ≤ 1 - f s := by
      intro l hl
      induction l with
      | nil => simp
      | cons x l ih =>
        have hx := hl x List.mem_cons_self
        obtain ⟨i1, i2, i3⟩ := ih fun p hp => hl p (List.mem_cons_of_mem _ hp)
        rw [List.map_cons, List.prod_cons]
        have a1 : 0 ≤ 1 - f x := by linarith
        refine ⟨by positivity, by nlinarith, fun s hs => ?_⟩
        rcases List.mem_cons.mp hs with rfl | hs
        · nlinarith
        · have := i3 s hs; nlinarith
    obtain ⟨i1, i2, i3⟩ := hb losses hr
    exact ⟨fun s hs => by have := i3 s hs; linarith, by linarith, by linarith⟩
  · exact (hp.map _).prod_eq.symm

/-- **C82**: where some series has no loss in force the combined loss is NaN. -/
theorem combine_nan (index : List ℝ) (losses : List TimeSeries) (fill : Fill) (t : ℝ) (ht : t ∈ index)
    (h : ∃ s ∈ losses, reindexAt fill s t = nan) : (t, nan) ∈ combineLossFactors index losses fill := by
  unfold combineLossFactors
  refine List.mem_map.mpr ⟨t, ht, ?_⟩
  have stay : ∀ l : List TimeSeries, l.foldl (fun acc loss => acc * (1 - reindexAt fill loss t)) nan = nan := by
    intro l
    induction l with
    | nil => rfl
    | cons x l ih => rw [List.foldl_cons, nan_mul, ih]
  have key : ∀ (l : List TimeSeries) (a : Fl), (∃ s ∈ l, reindexAt fill s t = nan) →
      l.foldl (fun acc loss => acc * (1 - reindexAt fill loss t)) a = nan := by
    intro l
    induction l with
    | nil => rintro a ⟨s, hs, -⟩; simp at hs
    | cons x l ih =>
      rintro a ⟨s, hs, hn⟩
      rw [List.foldl_cons]
      rcases List.mem_cons.mp hs with rfl | hs
      · rw [hn, sub_nan, mul_nan, stay]
      · exact ih _ ⟨s, hs, hn⟩
  rw [key losses 1 h, sub_nan]

example : (1, nan) ∈ combineLossFactors [0, 1] [[(0, nan)]] .ffill := combine_nan _ _ _ 1 (by simp)
  ⟨[(0, nan)], by simp, (ffill_value (s := [(0, nan)]) (by simp [Sorted]) 1).1 (0, nan) (by simp) (by norm_num) (by simp)⟩

/-! ### C83: module and inverter databases -/

/-- **C83**: exactly one of name and path; names in any case, five are known; a path beginning with "http" in any case is
fetched, any other is a file. -/
theorem retrieve_sam_dispatch (n p : String) :
    retrieveSam none none = .error .valueError ∧ retrieveSam (some n) (some p) = .error .valueError ∧
    (retrieveSam (some n) none = .error (.keyError n) ↔
      pyLower n ∉ ["cecmod", "sandiamod", "adrinverter", "cecinverter", "sandiainverter"]) ∧
    (pyLower n = "cecinverter" ∨ pyLower n = "sandiainverter" →
      retrieveSam (some n) none = .ok (.internal "sam-library-cec-inverters-2019-03-05.csv")) ∧
    (retrieveSam none (some p) = .ok (.url p) ∨ retrieveSam none (some p) = .ok (.file p)) ∧
    (retrieveSam none (some p) = .ok (.url p) ↔ "http".toList <+: (pyLower p).toList) := by
  refine ⟨rfl, rfl, ?_, ?_, ?_, ?_⟩
  · unfold retrieveSam internalDbs
    simp only [List.lookup_cons]
    by_cases h1 : pyLower n = "cecmod"
    · simp [h1]
    by_cases h2 : pyLower n = "sandiamod"
    · simp [h2]
    by_cases h3 : pyLower n = "adrinverter"
    · simp [h3]
    by_cases h4 : pyLower n = "cecinverter"
    · simp [h4]
    by_cases h5 : pyLower n = "sandiainverter"
    · simp [h5]
    simp [h1, h2, h3, h4, h5, beq_false_of_ne h1, beq_false_of_ne h2, beq_false_of_ne h3, beq_false_of_ne h4, beq_false_of_ne h5]
  · rintro (h | h) <;> simp [retrieveSam, internalDbs, h, List.lookup_cons]
  · unfold retrieveSam
    simp only
    split_ifs
    · left; rfl
    · right; rfl
  · unfold retrieveSam
    simp only [List.isPrefixOf_iff_prefix]
    split_ifs with h
    · simp only [h]
    · simp only [h, Except.ok.injEq, reduceCtorEq]

example := (retrieve_sam_dispatch "CECInverter" "x").2.2.2.1 (.inl (by decide +kernel))

/-- The characters `_normalize_sam_product_names` calls bad. -/
def specials : List Char := " -.()[]:+/\",".toList

/-- **C83**: normalising a product name replaces each special character by an underscore and nothing else; the result
has no special characters, and normalising again changes nothing. -/
theorem translate_value (s : List Char) :
    translate s = s.map (fun c => if c ∈ specials then '_' else c) ∧
    (∀ c ∈ translate s, c ∉ specials) ∧ translate (translate s) = translate s ∧
    ((∀ c ∈ s, c ∉ specials) → translate s = s) := by
  have hs : specials = badChars := by decide
  rw [hs]
  have hu : '_' ∉ badChars := by decide
  refine ⟨rfl, ?_, ?_, ?_⟩
  · intro c hc
    obtain ⟨d, -, rfl⟩ := List.mem_map.mp hc
    split_ifs with h
    · exact hu
    · exact h
  · unfold translate
    rw [List.map_map]
    apply List.map_congr_left
    intro c _
    simp only [Function.comp]
    by_cases h : c ∈ badChars
    · simp only [h, if_true, hu, if_false]
    · simp only [h, if_false]
  · intro h
    unfold translate
    conv_rhs => rw [← List.map_id s]
    apply List.map_congr_left
    intro c hc
    simp [h c hc]

/-- **C83**: a warning is issued exactly when two names coincide: before, or after, normalising. -/
theorem normalize_warnings (names : List (List Char)) :
    (normalizeNames names).1 = names.map translate ∧
    ((normalizeNames names).2.1.isSome ↔ ¬ names.Nodup) ∧
    ((normalizeNames names).2.2.isSome ↔ ¬ (names.map translate).Nodup) ∧
    ((normalizeNames names).2.1.isSome → (normalizeNames names).2.2.isSome) := by
  have hd : ∀ l : List (List Char), 0 < duplicates l ↔ ¬ l.Nodup := by
    intro l
    unfold duplicates
    have hle : l.dedup.length ≤ l.length := (List.dedup_sublist l).length_le
    constructor
    · intro h hn
      rw [List.dedup_eq_self.mpr hn] at h
      omega
    · intro h
      by_contra h'
      have : l.dedup.length = l.length := by omega
      have e := (List.dedup_sublist l).eq_of_length this
      exact h (e ▸ List.nodup_dedup l)
  have e1 : (normalizeNames names).2.1.isSome ↔ ¬ names.Nodup := by
    rw [← hd]; unfold normalizeNames; simp only; split_ifs with h <;> simp [h]
  have e2 : (normalizeNames names).2.2.isSome ↔ ¬ (names.map translate).Nodup := by
    rw [← hd]; unfold normalizeNames; simp only; split_ifs with h <;> simp [h]
  refine ⟨rfl, e1, e2, ?_⟩
  rw [e1, e2]
  intro h h'
  exact h h'.of_map

/-! ### The hypotheses can be met -/

example : (["p_mp", "v_mp", "i_mp"] : List String).Nodup ∧ ∀ k ∈ (["p_mp", "v_mp", "i_mp"] : List String),
    (columnScale 2 3 k).isSome := by
  refine ⟨by decide, ?_⟩
  intro k hk
  simp only [List.mem_cons, List.not_mem_nil, or_false] at hk
  rcases hk with rfl | rfl | rfl <;> rfl

example : Sorted [(0, fin 0.1), (2, fin 0.3)] ∧ reindexAt .ffill [(0, fin 0.1), (2, fin 0.3)] 1 = fin 0.1 := by
  have hs : Sorted [(0, fin 0.1), (2, fin 0.3)] := by simp [Sorted]
  refine ⟨hs, (ffill_value hs 1).1 (0, fin 0.1) (by simp) (by norm_num) ?_⟩
  intro q hq
  simp only [List.mem_cons, List.not_mem_nil, or_false] at hq
  rcases hq with rfl | rfl <;> norm_num

end Pvlib.Props.PvLosses
end
