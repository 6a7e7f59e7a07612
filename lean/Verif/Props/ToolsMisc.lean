import Verif.Model.Location
import Verif.Props.Spec

/-! # Properties C33 (index lookup), C34 (keyword helpers), C35 (Dublin Julian day), C40 (altitude) -/

noncomputable section
open scoped Classical
namespace Pvlib.Props.ToolsMisc
open Fl Pvlib.Tools

/-! ### Rounding -/

theorem aroundReal_spec (x : ℝ) : |(aroundReal x : ℝ) - x| ≤ 1 / 2 := by
  have h1 := Int.floor_le x
  have h2 := Int.lt_floor_add_one x
  unfold aroundReal
  split_ifs <;> push_cast <;> rw [abs_le] <;> constructor <;> linarith

theorem aroundReal_int (n : ℤ) : aroundReal (n : ℝ) = n := by
  simp [aroundReal]

private theorem aroundReal_mono_bounds (x : ℝ) (N : ℤ) (h0 : 0 ≤ x) (h1 : x ≤ N) :
    0 ≤ aroundReal x ∧ aroundReal x ≤ N := by
  have hf : 0 ≤ ⌊x⌋ := Int.floor_nonneg.mpr h0
  have hf2 : ⌊x⌋ ≤ N := by
    have := Int.floor_le x
    exact_mod_cast this.trans h1
  have h3 := Int.floor_le x
  have key : ⌊x⌋ = N → x - ⌊x⌋ < 1 / 2 := by
    intro h; rw [h]; linarith
  unfold aroundReal
  split_ifs with a b c
  · omega
  · have : ⌊x⌋ ≠ N := fun h => a (key h)
    omega
  · omega
  · have : ⌊x⌋ ≠ N := fun h => a (key h)
    omega

/-! ### C33 -/

/-- Centre of latitude cell `i` of the 1/12-degree raster (row 0 is the northernmost). -/
def latCentre (i : ℤ) : ℝ := 90 - (i + 1 / 2) / 12
/-- Centre of longitude cell `i` (column 0 is the westernmost). -/
def lonCentre (i : ℤ) : ℝ := -180 + (i + 1 / 2) / 12

/-- Margin, in cells, by which a coordinate may lie outside the raster. -/
def margin : ℝ := 0.000001

private theorem go_spec (index : ℝ) (N : ℤ) (hN : 0 ≤ N) :
    (indexOfReal (fin index) N = .error .valueError ↔ index < -(1 / 2 + margin) ∨ N + (1 / 2 + margin) < index) ∧
    (∀ e, indexOfReal (fin index) N = .error e → e = .valueError) ∧
    ∀ i, indexOfReal (fin index) N = .ok i → 0 ≤ i ∧ i ≤ N ∧ |(i : ℝ) - index| ≤ 1 / 2 + margin ∧
      ((-(1/2) ≤ index ∧ index ≤ N + 1 / 2) → |(i : ℝ) - index| ≤ 1 / 2) := by
  have hN' : (0 : ℝ) ≤ N := by exact_mod_cast hN
  have hm : (0.500001 : ℝ) = 1 / 2 + margin := by unfold margin; norm_num
  have hm0 : 0 < margin := by unfold margin; norm_num
  simp only [indexOfReal, fin_lt, fin_sub, ofScientific_eq, fin_le, zero_eq, neg_fin, intAround, hm]
  generalize margin = mg at *
  by_cases h1 : (N : ℝ) < index
  · simp only [h1, if_true]
    by_cases h2 : index - N ≤ 1 / 2 + mg
    · simp only [h2, if_true]
      refine ⟨⟨fun h => by simp at h, fun h => by exfalso; rcases h with h | h <;> linarith⟩, by simp, ?_⟩
      intro i hi
      simp only [Except.ok.injEq] at hi
      subst hi
      refine ⟨hN, le_rfl, ?_, fun h => ?_⟩ <;> rw [abs_le] <;> constructor <;> linarith [h1]
    · simp only [h2, if_false]
      exact ⟨⟨fun _ => Or.inr (by linarith), fun _ => by simp⟩, fun e h => by cases h; rfl, fun i hi => by simp at hi⟩
  · simp only [h1, if_false]
    by_cases h3 : index < 0
    · simp only [h3, if_true]
      by_cases h4 : -index ≤ 1 / 2 + mg
      · simp only [h4, if_true]
        refine ⟨⟨fun h => by simp at h, fun h => by exfalso; rcases h with h | h <;> linarith⟩, by simp, ?_⟩
        intro i hi
        simp only [Except.ok.injEq] at hi
        subst hi
        refine ⟨le_rfl, hN, ?_, fun h => ?_⟩ <;> simp only [Int.cast_zero] <;> rw [abs_le] <;> constructor <;> linarith [h3]
      · simp only [h4, if_false]
        exact ⟨⟨fun _ => Or.inl (by linarith), fun _ => by simp⟩, fun e h => by cases h; rfl, fun i hi => by simp at hi⟩
    · simp only [h3, if_false]
      refine ⟨⟨fun h => by simp at h, fun h => by exfalso; rcases h with h | h <;> linarith⟩, by simp, ?_⟩
      intro i hi
      simp only [Except.ok.injEq] at hi
      subst hi
      obtain ⟨b1, b2⟩ := aroundReal_mono_bounds index N (by linarith) (by linarith)
      have := aroundReal_spec index
      exact ⟨b1, b2, by linarith, fun _ => this⟩

private theorem lat_eq (d : ℝ) : degreesToIndex (fin d) "latitude" = indexOfReal (fin ((90 - 1 / 24 - d) * 12)) 2159 := by
  have : degreesToReal (fin d) 90 (-90) 2160 = fin ((90 - 1 / 24 - d) * 12) := by
    simp only [degreesToReal, ofNat_eq, one_eq, neg_fin, fin_sub]
    rw [fin_div (by norm_num), fin_div (by norm_num), fin_div (by norm_num)]
    simp only [fin_add, fin_sub, fin_mul, fin_inj]
    norm_num; ring
  simp only [degreesToIndex, this]; rfl

private theorem lon_eq (d : ℝ) : degreesToIndex (fin d) "longitude" = indexOfReal (fin ((d + 180 - 1 / 24) * 12)) 4319 := by
  have : degreesToReal (fin d) (-180) 180 4320 = fin ((d + 180 - 1 / 24) * 12) := by
    simp only [degreesToReal, ofNat_eq, one_eq, neg_fin, fin_sub]
    rw [fin_div (by norm_num), fin_div (by norm_num), fin_div (by norm_num)]
    simp only [fin_add, fin_sub, fin_mul, fin_inj]
    norm_num; ring
  have hs : "longitude" ≠ "latitude" := by decide
  simp only [degreesToIndex, this, if_neg hs]; rfl

/-- **C33** (latitude).  The index is in `0..2159`; its cell centre is within half a cell of the latitude
(plus the stated 1e-6-cell margin just outside the raster); ValueError exactly beyond that margin, so never
for a latitude in [-90, 90]. -/
theorem latIndex_spec (d : ℝ) :
    (degreesToIndex (fin d) "latitude" = .error .valueError ↔
      d < -90 - margin / 12 ∨ 90 + margin / 12 < d) ∧
    ∀ i, degreesToIndex (fin d) "latitude" = .ok i →
      0 ≤ i ∧ i ≤ 2159 ∧ |latCentre i - d| ≤ (1 / 2 + margin) / 12 ∧
      (-90 ≤ d ∧ d ≤ 90 → |latCentre i - d| ≤ 1 / 2 / 12) := by
  obtain ⟨h1, -, h2⟩ := go_spec ((90 - 1 / 24 - d) * 12) 2159 (by norm_num)
  rw [lat_eq]
  refine ⟨h1.trans ?_, fun i hi => ?_⟩
  · push_cast
    constructor <;> rintro (h | h)
    · right; norm_num at *; linarith
    · left; norm_num at *; linarith
    · right; norm_num at *; linarith
    · left; norm_num at *; linarith
  · obtain ⟨a1, a2, a3, a4⟩ := h2 i hi
    have key : latCentre i - d = -((i : ℝ) - (90 - 1 / 24 - d) * 12) / 12 := by unfold latCentre; ring
    refine ⟨a1, a2, ?_, fun hd => ?_⟩
    · rw [key, abs_div, abs_neg, abs_of_pos (by norm_num : (0:ℝ) < 12)]
      gcongr
    · have := a4 ⟨by linarith [hd.2], by push_cast; linarith [hd.1]⟩
      rw [key, abs_div, abs_neg, abs_of_pos (by norm_num : (0:ℝ) < 12)]
      gcongr

/-- **C33** (longitude). -/
theorem lonIndex_spec (d : ℝ) :
    (degreesToIndex (fin d) "longitude" = .error .valueError ↔
      d < -180 - margin / 12 ∨ 180 + margin / 12 < d) ∧
    ∀ i, degreesToIndex (fin d) "longitude" = .ok i →
      0 ≤ i ∧ i ≤ 4319 ∧ |lonCentre i - d| ≤ (1 / 2 + margin) / 12 ∧
      (-180 ≤ d ∧ d ≤ 180 → |lonCentre i - d| ≤ 1 / 2 / 12) := by
  obtain ⟨h1, -, h2⟩ := go_spec ((d + 180 - 1 / 24) * 12) 4319 (by norm_num)
  rw [lon_eq]
  refine ⟨h1.trans ?_, fun i hi => ?_⟩
  · push_cast
    constructor <;> rintro (h | h)
    · left; norm_num at *; linarith
    · right; norm_num at *; linarith
    · left; norm_num at *; linarith
    · right; norm_num at *; linarith
  · obtain ⟨a1, a2, a3, a4⟩ := h2 i hi
    have key : lonCentre i - d = ((i : ℝ) - (d + 180 - 1 / 24) * 12) / 12 := by unfold lonCentre; ring
    refine ⟨a1, a2, ?_, fun hd => ?_⟩
    · rw [key, abs_div, abs_of_pos (by norm_num : (0:ℝ) < 12)]
      gcongr
    · have := a4 ⟨by linarith [hd.1], by push_cast; linarith [hd.2]⟩
      rw [key, abs_div, abs_of_pos (by norm_num : (0:ℝ) < 12)]
      gcongr

private theorem index_total (d : ℝ) (c : String) (hc : c = "latitude" ∨ c = "longitude") :
    degreesToIndex (fin d) c = .error .valueError ∨ ∃ i, degreesToIndex (fin d) c = .ok i := by
  cases h : degreesToIndex (fin d) c with
  | ok i => exact Or.inr ⟨i, rfl⟩
  | error e =>
    left
    rcases hc with rfl | rfl
    · rw [lat_eq] at h
      rw [(go_spec _ 2159 (by norm_num)).2.1 e h]
    · rw [lon_eq] at h
      rw [(go_spec _ 4319 (by norm_num)).2.1 e h]

/-- **C33**: every latitude in [-90, 90] and every longitude in [-180, 180] has an index; no other
coordinate name is accepted; a NaN coordinate raises ValueError. -/
theorem index_exists (d : ℝ) :
    (-90 ≤ d → d ≤ 90 → ∃ i, degreesToIndex (fin d) "latitude" = .ok i) ∧
    (-180 ≤ d → d ≤ 180 → ∃ i, degreesToIndex (fin d) "longitude" = .ok i) := by
  constructor
  · intro h1 h2
    rcases index_total d "latitude" (Or.inl rfl) with h | h
    · rw [(latIndex_spec d).1] at h
      unfold margin at h
      exfalso; rcases h with h | h <;> norm_num at h <;> linarith
    · exact h
  · intro h1 h2
    rcases index_total d "longitude" (Or.inr rfl) with h | h
    · rw [(lonIndex_spec d).1] at h
      unfold margin at h
      exfalso; rcases h with h | h <;> norm_num at h <;> linarith
    · exact h

example := ((latIndex_spec 45).2 _ ((index_exists 45).1 (by norm_num) (by norm_num)).choose_spec).1
example := ((lonIndex_spec (-105)).2 _ ((index_exists (-105)).2 (by norm_num) (by norm_num)).choose_spec).1

theorem index_bad_name (d : Fl) (c : String) (h1 : c ≠ "latitude") (h2 : c ≠ "longitude") :
    degreesToIndex d c = .error .valueError := by simp [degreesToIndex, h1, h2]

example := index_bad_name (fin 45) "lat" (by decide) (by decide)

theorem index_nan (c : String) : degreesToIndex nan c = .error .valueError := by
  simp [degreesToIndex, degreesToReal, indexOfReal, intAround]

/-! ### C40 -/

/-- **C40**.  For in-range coordinates `lookup_altitude` succeeds whatever the raster contains; the result
is 0 for the no-data code 255 of the nearest cell and `28 c - 450` for any other code `c`, hence between
-450 and 6662 m. -/
theorem lookupAltitude_spec (raster : ℤ → ℤ → Fin 256) (lat lon : ℝ) (h1 : -90 ≤ lat ∧ lat ≤ 90)
    (h2 : -180 ≤ lon ∧ lon ≤ 180) :
    ∃ (i j : ℤ) (a : ℝ), Location.lookupAltitude raster (fin lat) (fin lon) = .ok (fin a) ∧
      0 ≤ i ∧ i ≤ 2159 ∧ 0 ≤ j ∧ j ≤ 4319 ∧ |latCentre i - lat| ≤ 1 / 24 ∧ |lonCentre j - lon| ≤ 1 / 24 ∧
      ((raster i j).val = 255 → a = 0) ∧ ((raster i j).val ≠ 255 → a = 28 * (raster i j).val - 450) ∧
      -450 ≤ a ∧ a ≤ 6662 := by
  obtain ⟨i, hi⟩ := (index_exists lat).1 h1.1 h1.2
  obtain ⟨j, hj⟩ := (index_exists lon).2 h2.1 h2.2
  obtain ⟨a1, a2, -, a3⟩ := (latIndex_spec lat).2 i hi
  obtain ⟨b1, b2, -, b3⟩ := (lonIndex_spec lon).2 j hj
  have a3 := a3 h1
  have b3 := b3 h2
  norm_num at a3 b3
  by_cases hr : (raster i j).val = 255
  · refine ⟨i, j, 0, ?_, a1, a2, b1, b2, a3, b3, fun _ => rfl, fun h => absurd hr h, by norm_num, by norm_num⟩
    simp [Location.lookupAltitude, hi, hj, hr]
  · refine ⟨i, j, 28 * (raster i j).val - 450, ?_, a1, a2, b1, b2, a3, b3, fun h => absurd h hr, fun _ => rfl, ?_, ?_⟩
    · simp only [Location.lookupAltitude, hi, hj]
      rw [if_neg hr]
      simp only [ofNat_eq, fin_mul, fin_sub, fin_inj, Except.ok.injEq]
      ring
    · have : (0 : ℝ) ≤ (raster i j).val := by positivity
      linarith
    · have h3 := (raster i j).isLt
      have : (raster i j).val ≤ 254 := by omega
      have : ((raster i j).val : ℝ) ≤ 254 := by exact_mod_cast this
      linarith

example (raster) := lookupAltitude_spec raster 45 (-105) (by norm_num) (by norm_num)

/-- **C40** (out of range): a latitude beyond the margin raises ValueError, whatever the raster. -/
theorem lookupAltitude_error (raster : ℤ → ℤ → Fin 256) (lat : ℝ) (lon : Fl) (h : 90.1 ≤ lat ∨ lat ≤ -90.1) :
    Location.lookupAltitude raster (fin lat) lon = .error .valueError := by
  have : degreesToIndex (fin lat) "latitude" = .error .valueError := by
    rw [(latIndex_spec lat).1]; unfold margin
    rcases h with h | h
    · right; norm_num at *; linarith
    · left; norm_num at *; linarith
  simp [Location.lookupAltitude, this]

example (raster) := lookupAltitude_error raster 91 (fin 10) (.inl (by norm_num))

/-! ### C34 -/

private theorem get_set {α : Type} (d : PyDict α) (k j : String) (v : α) :
    (d.set k v).get? j = if k = j then some v else d.get? j := by
  induction d with
  | nil => simp [PyDict.set, PyDict.get?]
  | cons p rest ih =>
    obtain ⟨k', w⟩ := p
    simp only [PyDict.set]
    by_cases h : k' = k
    · subst h
      by_cases h2 : k' = j <;> simp [PyDict.get?, h2]
    · by_cases h2 : k' = j
      · subst h2
        have : k ≠ k' := fun e => h e.symm
        simp [PyDict.get?, h, this]
      · simp [PyDict.get?, h, h2, ih]

private theorem set_keys {α : Type} (d : PyDict α) (k : String) (v : α) :
    (d.set k v).map Prod.fst = if k ∈ d.map Prod.fst then d.map Prod.fst else d.map Prod.fst ++ [k] := by
  induction d with
  | nil => simp [PyDict.set]
  | cons p rest ih =>
    obtain ⟨k', w⟩ := p
    simp only [PyDict.set]
    by_cases h : k' = k
    · simp [h]
    · have : k ≠ k' := fun e => h e.symm
      simp only [h, if_false, List.map_cons, ih, List.mem_cons, this, false_or]
      split_ifs <;> simp

private theorem kwargs_aux {α : Type} (d : PyDict α) (keys : List String) (acc : PyDict α)
    (hacc : ∀ k v, acc.get? k = some v → d.get? k = some v) (k : String) :
    (keys.foldl (kwargsStep d) acc).get? k =
      if k ∈ keys then (match d.get? k with | some v => some v | none => acc.get? k) else acc.get? k := by
  induction keys generalizing acc with
  | nil => simp
  | cons key keys ih =>
    simp only [List.foldl_cons]
    cases hd : d.get? key with
    | none =>
      rw [show kwargsStep d acc key = acc by simp [kwargsStep, hd]]
      rw [ih acc hacc]
      by_cases hk : k = key
      · subst hk; simp [hd]
      · simp [hk]
    | some v =>
      rw [show kwargsStep d acc key = acc.set key v by simp [kwargsStep, hd]]
      rw [ih (acc.set key v) ?_]
      · by_cases hk : k = key
        · subst hk; simp [hd, get_set]
        · have : key ≠ k := fun e => hk e.symm
          simp [hk, get_set, this]
      · intro k' v' h'
        rw [get_set] at h'
        by_cases hk : key = k'
        · subst hk; simp at h'; rw [hd, h']
        · simp [hk] at h'; exact hacc k' v' h'

/-- **C34**.  `_build_kwargs(keys, d)` contains a key exactly when it was requested and is in `d`, with the
value it has in `d`. -/
theorem buildKwargs_get {α : Type} (keys : List String) (d : PyDict α) (k : String) :
    (buildKwargs keys d).get? k = if k ∈ keys then d.get? k else none := by
  unfold buildKwargs
  rw [kwargs_aux d keys [] (by intro k v h; simp [PyDict.get?] at h) k]
  cases d.get? k <;> simp [PyDict.get?]

/-- **C34**: the keys of the result are in the order of the request, each once. -/
theorem buildKwargs_keys {α : Type} (keys : List String) (d : PyDict α) :
    ((buildKwargs keys d).map Prod.fst).Nodup ∧
    (keys.Nodup → (buildKwargs keys d).map Prod.fst = keys.filter (fun k => (d.get? k).isSome)) := by
  have gen : ∀ (keys : List String) (acc : PyDict α), (acc.map Prod.fst).Nodup →
      let r := (keys.foldl (kwargsStep d) acc).map Prod.fst
      r.Nodup ∧ (keys.Nodup → (∀ k ∈ keys, k ∉ acc.map Prod.fst) →
        r = acc.map Prod.fst ++ keys.filter (fun k => (d.get? k).isSome)) := by
    intro keys
    induction keys with
    | nil => intro acc h; simp [h]
    | cons key keys ih =>
      intro acc h
      simp only [List.foldl_cons]
      cases hd : d.get? key with
      | none =>
        rw [show kwargsStep d acc key = acc by simp [kwargsStep, hd]]
        obtain ⟨i1, i2⟩ := ih acc h
        refine ⟨i1, fun hn hk => ?_⟩
        rw [i2 (List.nodup_cons.mp hn).2 (fun k hk' => hk k (by simp [hk']))]
        simp [hd]
      | some v =>
        rw [show kwargsStep d acc key = acc.set key v by simp [kwargsStep, hd]]
        have hset := set_keys acc key v
        have hnd : ((acc.set key v).map Prod.fst).Nodup := by
          rw [hset]
          split_ifs with hm
          · exact h
          · rw [List.nodup_append]
            refine ⟨h, by simp, ?_⟩
            intro a ha b hb
            simp only [List.mem_singleton] at hb
            subst hb
            intro he; subst he; exact hm ha
        obtain ⟨i1, i2⟩ := ih (acc.set key v) hnd
        refine ⟨i1, fun hn hk => ?_⟩
        have hkey : key ∉ acc.map Prod.fst := hk key (by simp)
        rw [i2 (List.nodup_cons.mp hn).2 ?_]
        · rw [hset, if_neg hkey]
          simp [hd]
        · intro k hk'
          rw [hset, if_neg hkey]
          simp only [List.mem_append, List.mem_singleton, not_or]
          refine ⟨hk k (by simp [hk']), ?_⟩
          intro he; subst he
          exact (List.nodup_cons.mp hn).1 hk'
  obtain ⟨g1, g2⟩ := gen keys [] (by simp)
  refine ⟨g1, fun hn => ?_⟩
  have := g2 hn (by simp)
  simpa [buildKwargs] using this

example := (buildKwargs_keys ["K", "L", "n"] [("n", (1.5 : ℝ)), ("a_r", 0.16), ("K", 4)]).2 (by decide)

/-- **C34**.  `_build_args(keys, d, …)` returns the values of all keys in the order asked for … -/
theorem buildArgs_ok {α : Type} (keys : List String) (d : PyDict α) (vs : List α) :
    buildArgs keys d = .ok vs ↔ keys.map (fun k => d.get? k) = vs.map some := by
  induction keys generalizing vs with
  | nil => cases vs <;> simp [buildArgs]
  | cons key keys ih =>
    cases hd : d.get? key with
    | none => cases vs <;> simp [buildArgs, argOf, hd]
    | some v =>
      cases hr : buildArgs keys d with
      | error e =>
        cases vs with
        | nil => simp [buildArgs, argOf, hd, hr]
        | cons w vs =>
          have := ih vs
          rw [hr] at this
          simp only [reduceCtorEq, false_iff] at this
          simp [buildArgs, argOf, hd, hr, this]
      | ok ws =>
        cases vs with
        | nil => simp [buildArgs, argOf, hd, hr]
        | cons w vs =>
          have := ih vs
          rw [hr] at this
          simp only [Except.ok.injEq] at this
          simp [buildArgs, argOf, hd, hr, this]

/-- … or a KeyError naming the first missing key. -/
theorem buildArgs_error {α : Type} (keys : List String) (d : PyDict α) (e : PyErr) :
    buildArgs keys d = .error e ↔
      ∃ pre k post, keys = pre ++ k :: post ∧ (∀ j ∈ pre, (d.get? j).isSome) ∧ d.get? k = none ∧
        e = .keyError k := by
  induction keys with
  | nil => simp [buildArgs]
  | cons key keys ih =>
    cases hd : d.get? key with
    | none =>
      constructor
      · intro h
        refine ⟨[], key, keys, rfl, by simp, hd, ?_⟩
        simp [buildArgs, argOf, hd] at h
        exact h.symm
      · rintro ⟨pre, k, post, h, h1, h2, rfl⟩
        cases pre with
        | nil =>
          simp only [List.nil_append, List.cons.injEq] at h
          simp [buildArgs, argOf, hd, h.1]
          rw [← h.1, hd]
        | cons p pre =>
          simp only [List.cons_append, List.cons.injEq] at h
          have := h1 p (by simp)
          rw [← h.1, hd] at this
          simp at this
    | some v =>
      have step : buildArgs (key :: keys) d = .error e ↔ buildArgs keys d = .error e := by
        cases hr : buildArgs keys d <;> simp [buildArgs, argOf, hd, hr]
      rw [step, ih]
      constructor
      · rintro ⟨pre, k, post, h, h1, h2, h3⟩
        refine ⟨key :: pre, k, post, by rw [h]; rfl, ?_, h2, h3⟩
        intro j hj
        rcases List.mem_cons.mp hj with rfl | hj
        · simp [hd]
        · exact h1 j hj
      · rintro ⟨pre, k, post, h, h1, h2, h3⟩
        cases pre with
        | nil =>
          simp only [List.nil_append, List.cons.injEq] at h
          rw [← h.1, hd] at h2; simp at h2
        | cons p pre =>
          simp only [List.cons_append, List.cons.injEq] at h
          exact ⟨pre, k, post, h.2, fun j hj => h1 j (by simp [hj]), h2, h3⟩

example : buildKwargs ["a", "x", "b"] [("b", 2), ("c", 3), ("a", 1)] = [("a", 1), ("b", 2)] := by decide
example : buildArgs ["a", "x", "y"] [("b", 2), ("a", 1)] = .error (.keyError "x") := by
  rw [buildArgs_error]
  exact ⟨["a"], "x", ["y"], rfl, by decide, by decide, rfl⟩

/-! ### C35 -/

/-- The instant a datetime denotes, in microseconds since 0001-01-01 UTC, with naive datetimes read as
UTC (as documented). -/
def instant : PyDatetime → ℤ
  | .naive w => w
  | .aware u _ => u

/-- **C35**.  Going to Dublin Julian days and back gives the same instant, in the zone asked for. -/
theorem djd_roundtrip (t : PyDatetime) (tz : String) :
    djdToDatetime (datetimeToDjd t) tz = .aware (instant t) tz := by
  have key : datetimeToDjd t * (24 * 3600 * 1000000) = ((instant t - djdStart : ℤ) : ℝ) := by
    cases t <;> simp only [datetimeToDjd, instant] <;> ring
  simp only [djdToDatetime, key, aroundReal_int]
  congr 1; ring

/-- **C35** (other direction): from Dublin Julian days to a datetime and back is exact up to half a
microsecond. -/
theorem djd_roundtrip' (x : ℝ) (tz : String) :
    |datetimeToDjd (djdToDatetime x tz) - x| ≤ 1 / 2 / (24 * 3600 * 1000000) := by
  have h := aroundReal_spec (x * (24 * 3600 * 1000000))
  simp only [djdToDatetime, datetimeToDjd]
  rw [show djdStart + aroundReal (x * (24 * 3600 * 1000000)) - djdStart =
    aroundReal (x * (24 * 3600 * 1000000)) by ring]
  rw [show ((aroundReal (x * (24 * 3600 * 1000000)) : ℤ) : ℝ) / 1000000 * 1 / (60 * 60 * 24) - x =
    (((aroundReal (x * (24 * 3600 * 1000000)) : ℤ) : ℝ) - x * (24 * 3600 * 1000000)) / (24 * 3600 * 1000000) by
      field_simp; ring]
  rw [abs_div, abs_of_pos (by norm_num : (0:ℝ) < 24 * 3600 * 1000000)]
  gcongr

/-- Days from 0001-01-01 to the date `y-m-d` in the proleptic Gregorian calendar (as in Python's `datetime`). -/
def civilDay (y m d : ℕ) : ℤ :=
  let p : ℤ := y - 1
  let leap := (y % 4 = 0 ∧ y % 100 ≠ 0) ∨ y % 400 = 0
  365 * p + p / 4 - p / 100 + p / 400 +
    ([0, 31, 59, 90, 120, 151, 181, 212, 243, 273, 304, 334].getD (m - 1) 0 : ℤ) +
    (if leap ∧ 2 < m then 1 else 0) + (d - 1)

/-- The instant `y-m-d` at `us` microseconds past midnight UTC. -/
def civilInstant (y m d : ℕ) (us : ℤ) : ℤ := civilDay y m d * 86400000000 + us

/-- **C35**: the Dublin Julian day of a UTC date and time is the number of days, with fraction, since noon of
1899-12-31. -/
theorem djd_epoch (y m d : ℕ) (us : ℤ) (zone : String) :
    datetimeToDjd (.aware (civilInstant y m d us) zone) =
      ((civilDay y m d - civilDay 1899 12 31 : ℤ) : ℝ) + (us : ℝ) / 86400000000 - 1 / 2 := by
  have h : civilDay 1899 12 31 = 693594 := by decide +kernel
  simp only [datetimeToDjd, h, civilInstant, djdStart]
  push_cast
  ring

/-- 1899-12-31 12:00 UTC is day 0; 2000-01-01 00:00 UTC is day 36524.5. -/
example : datetimeToDjd (.aware (civilInstant 1899 12 31 43200000000) "UTC") = 0 ∧
    datetimeToDjd (.aware (civilInstant 2000 1 1 0) "UTC") = 36524.5 := by
  have h : civilDay 1899 12 31 = 693594 := by decide +kernel
  have h' : civilDay 2000 1 1 = 730119 := by decide +kernel
  constructor <;> rw [djd_epoch, h] <;> norm_num [h']

/-- **C35**: the conversion depends only on the instant, is strictly increasing in it, and advances by one
per 86400 s; 1899-12-31 12:00 UTC is day 0. -/
theorem djd_order (s t : PyDatetime) :
    (datetimeToDjd s < datetimeToDjd t ↔ instant s < instant t) ∧
    (datetimeToDjd t - datetimeToDjd s = ((instant t - instant s : ℤ) : ℝ) / 86400000000) ∧
    datetimeToDjd (.aware djdStart "UTC") = 0 := by
  have key : ∀ t, datetimeToDjd t = ((instant t : ℤ) : ℝ) / 86400000000 - (djdStart : ℝ) / 86400000000 := by
    intro t
    cases t <;> simp only [datetimeToDjd, instant] <;> push_cast <;> ring
  refine ⟨?_, ?_, ?_⟩
  · rw [key, key]
    constructor
    · intro h
      have : ((instant s : ℤ) : ℝ) < (instant t : ℤ) := by
        have := sub_lt_sub_iff_right _ |>.mp h
        rwa [div_lt_div_iff_of_pos_right (by norm_num)] at this
      exact_mod_cast this
    · intro h
      have : ((instant s : ℤ) : ℝ) < (instant t : ℤ) := by exact_mod_cast h
      gcongr
  · rw [key, key]; push_cast; ring
  · rw [key]; simp [instant]

end Pvlib.Props.ToolsMisc
end
