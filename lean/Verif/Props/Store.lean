import Verif.Model.Store
import Verif.Props.Requests
import Verif.Props.ArrayClass

/-!
# C187–C189: what calls change in place

Statements about a store of objects: objects that existed before a call are the caller's data, module-level tables and results of earlier calls.
-/
noncomputable section
namespace Pvlib.Props.Store
open Pvlib Pvlib.Store Pvlib.Tools

variable {C : Type}

/-! ### Specification -/

/-- Every object that exists in `s` has the same contents in `s'`. -/
def Unchanged (s s' : Store C) : Prop := ∀ a < s.length, s'.read a = s.read a

/-! ### Lemmas on stores -/

/-- The first `n` objects are kept. -/
def Keep (n : ℕ) (s s' : Store C) : Prop := n ≤ s.length → n ≤ s'.length ∧ s'.take n = s.take n

theorem Keep.refl (n : ℕ) (s : Store C) : Keep n s s := fun h => ⟨h, rfl⟩

theorem Keep.trans {n : ℕ} {s t u : Store C} (h1 : Keep n s t) (h2 : Keep n t u) : Keep n s u := fun h =>
  let ⟨a, b⟩ := h1 h
  let ⟨c, d⟩ := h2 a
  ⟨c, d.trans b⟩

theorem keep_alloc (n : ℕ) (s : Store C) (f : PyDict C) : Keep n s (s.alloc f).2 := fun h => by
  refine ⟨by simp [Store.alloc]; omega, ?_⟩
  simp [Store.alloc, List.take_append_of_le_length h]

theorem keep_write {n : ℕ} (s : Store C) (a : Addr) (f : PyDict C) (ha : n ≤ a) : Keep n s (s.write a f) := fun h => by
  refine ⟨by simpa [Store.write] using h, ?_⟩
  simp [Store.write, List.take_set_of_le ha]

theorem keep_read {n : ℕ} {s t : Store C} (h : Keep n s t) (hn : n ≤ s.length) (a : Addr) (ha : a < n) : t.read a = s.read a := by
  obtain ⟨h1, h2⟩ := h hn
  have e : ∀ u : Store C, n ≤ u.length → u.read a = (u.take n).getD a [] := by
    intro u hu
    simp only [Store.read, List.getD_eq_getElem?_getD, List.getElem?_take_of_lt ha]
  rw [e t h1, e s hn, h2]

theorem unchanged_of_keep {s t : Store C} (h : Keep s.length s t) : Unchanged s t := fun a ha => keep_read h le_rfl a ha

theorem read_alloc (s : Store C) (f : PyDict C) : (s.alloc f).2.read (s.alloc f).1 = f := by
  simp [Store.alloc, Store.read]

theorem read_write (s : Store C) (a : Addr) (f : PyDict C) (ha : a < s.length) : (s.write a f).read a = f := by
  simp [Store.write, Store.read, ha]

theorem read_write_ne (s : Store C) (a b : Addr) (f : PyDict C) (h : a ≠ b) : (s.write a f).read b = s.read b := by
  simp [Store.write, Store.read, List.getD_eq_getElem?_getD, List.getElem?_set_ne h]

theorem length_write (s : Store C) (a : Addr) (f : PyDict C) : (s.write a f).length = s.length := by simp [Store.write]

theorem length_put (s : Store C) (a : Addr) (k : String) (v : C) : (s.put a k v).length = s.length := length_write ..

/-- A step that makes one new object, keeps all others and whose object satisfies `P`. -/
def Makes (f : Store C → Addr × Store C) (P : PyDict C → Prop) (s : Store C) : Prop :=
  Keep s.length s (f s).2 ∧ s.length ≤ (f s).1 ∧ (f s).1 < (f s).2.length ∧ P ((f s).2.read (f s).1)

/-- A comprehension of such steps. -/
theorem mapStore_makes {X : Type} (f : Store C → X → Addr × Store C) (P : X → PyDict C → Prop) (l : List X) :
    ∀ (s0 s : Store C), Keep s0.length s0 s → s0.length ≤ s.length →
      (∀ x ∈ l, ∀ t, Keep s0.length s0 t → Makes (fun s => f s x) (P x) t) →
      Keep s.length s (mapStore f s l).2 ∧ (∀ a ∈ (mapStore f s l).1, s.length ≤ a ∧ a < (mapStore f s l).2.length) ∧
      (mapStore f s l).1.Nodup ∧ List.Forall₂ (fun x a => P x ((mapStore f s l).2.read a)) l (mapStore f s l).1 := by
  induction l with
  | nil => intro s0 s _ _ _; exact ⟨Keep.refl _ _, by simp [mapStore], by simp [mapStore], by simp [mapStore]⟩
  | cons x t ih =>
    intro s0 s hk hl hf
    obtain ⟨k1, k2, k3, k4⟩ := hf x (by simp) s hk
    dsimp only at k1 k2 k3 k4
    have hk1 : Keep s0.length s0 (f s x).2 := hk.trans (fun _ => by
      obtain ⟨a1, a2⟩ := k1 le_rfl
      refine ⟨by omega, ?_⟩
      have := congrArg (List.take s0.length) a2
      rwa [List.take_take, List.take_take, min_eq_left hl] at this)
    have hl1 : s0.length ≤ (f s x).2.length := (hk1 le_rfl).1
    obtain ⟨i1, i2, i3, i4⟩ := ih s0 (f s x).2 hk1 hl1 (fun y hy => hf y (by simp [hy]))
    have hls : s.length ≤ (f s x).2.length := (k1 le_rfl).1
    have i1' : Keep s.length (f s x).2 (mapStore f (f s x).2 t).2 := fun _ => by
      obtain ⟨a1, a2⟩ := i1 le_rfl
      refine ⟨by omega, ?_⟩
      have := congrArg (List.take s.length) a2
      rwa [List.take_take, List.take_take, min_eq_left hls] at this
    have e1 : (mapStore f s (x :: t)).1 = (f s x).1 :: (mapStore f (f s x).2 t).1 := rfl
    have e2 : (mapStore f s (x :: t)).2 = (mapStore f (f s x).2 t).2 := rfl
    rw [e1, e2]
    refine ⟨k1.trans i1', ?_, ?_, ?_⟩
    · intro a ha
      rcases List.mem_cons.mp ha with rfl | ha
      · exact ⟨k2, lt_of_lt_of_le k3 (i1 le_rfl).1⟩
      · exact ⟨le_trans hls (i2 a ha).1, (i2 a ha).2⟩
    · exact List.nodup_cons.mpr ⟨fun h => absurd (i2 _ h).1 (not_le.mpr k3), i3⟩
    · refine List.Forall₂.cons ?_ i4
      rw [keep_read i1 le_rfl _ k3]
      exact k4

/-- A loop that changes distinct objects, each by itself. -/
theorem forStore_writes (g : PyDict C → PyDict C) (l : List Addr) :
    ∀ (s : Store C) (n : ℕ), (∀ a ∈ l, n ≤ a ∧ a < s.length) → l.Nodup →
      Keep n s (forStore (fun s a => s.write a (g (s.read a))) s l) ∧
      (forStore (fun s a => s.write a (g (s.read a))) s l).length = s.length ∧
      (∀ a ∈ l, (forStore (fun s a => s.write a (g (s.read a))) s l).read a = g (s.read a)) ∧
      ∀ b, b ∉ l → (forStore (fun s a => s.write a (g (s.read a))) s l).read b = s.read b := by
  induction l with
  | nil => intro s n _ _; exact ⟨Keep.refl _ _, rfl, by simp, fun _ _ => rfl⟩
  | cons x t ih =>
    intro s n h hn
    obtain ⟨hx, ht⟩ := List.nodup_cons.mp hn
    have hxs := h x (by simp)
    obtain ⟨i1, i2, i3, i4⟩ := ih (s.write x (g (s.read x))) n (fun a ha => by
      rw [length_write]; exact h a (by simp [ha])) ht
    have e : forStore (fun s a => s.write a (g (s.read a))) s (x :: t) =
      forStore (fun s a => s.write a (g (s.read a))) (s.write x (g (s.read x))) t := rfl
    rw [e]
    refine ⟨(keep_write s x _ hxs.1).trans i1, by rw [i2, length_write], ?_, ?_⟩
    · intro a ha
      rcases List.mem_cons.mp ha with rfl | ha
      · rw [i4 _ hx, read_write _ _ _ hxs.2]
      · rw [i3 a ha, read_write_ne _ _ _ _ (fun (h : x = a) => hx (by rw [h]; exact ha))]
    · intro b hb
      have hb' : b ≠ x ∧ b ∉ t := by simpa using hb
      rw [i4 b hb'.2, read_write_ne _ _ _ _ (fun h => hb'.1 h.symm)]

/-! ### Parts of a run -/

theorem get?_select (d : PyDict C) (keys : List String) (k : String) :
    PyDict.get? (keys.filterMap fun k => (d.get? k).map fun v => (k, v)) k = if k ∈ keys then d.get? k else none := by
  induction keys with
  | nil => simp [PyDict.get?]
  | cons x t ih =>
    cases hx : d.get? x with
    | none =>
      rw [List.filterMap_cons_none (by simp [hx]), ih]
      by_cases h : k = x
      · subst h; simp [hx]
      · simp [h]
    | some v =>
      rw [List.filterMap_cons_some (by simp [hx] : _ = some (x, v))]
      simp only [PyDict.get?]
      by_cases h : x = k
      · subst h; simp [hx]
      · rw [if_neg h, ih]
        have h' : k ≠ x := fun e => h e.symm
        simp [h']

/-- The weather a run works with: the known columns of the caller's data; wind speed 0 and air temperature 20 if they are missing. -/
def expectedWeather (e : Engine C) (given : PyDict C) (key : String) : Option C :=
  if key ∈ ["ghi", "dhi", "dni", "wind_speed", "temp_air", "precipitable_water"] then
    match given.get? key with
    | some v => some v
    | none => if key = "wind_speed" then some e.zero else if key = "temp_air" then some e.twenty else none
  else none

private theorem putDefault (s : Store C) (n a : ℕ) (hn : n ≤ a) (ha : a < s.length) (key : String) (v : C) :
    Keep n s (if ((s.read a).get? key).isNone then s.put a key v else s) ∧
    (if ((s.read a).get? key).isNone then s.put a key v else s).length = s.length ∧
    ∀ k, ((if ((s.read a).get? key).isNone then s.put a key v else s).read a).get? k =
      if k = key then some (((s.read a).get? key).getD v) else (s.read a).get? k := by
  by_cases h : ((s.read a).get? key).isNone
  · rw [if_pos h]
    refine ⟨keep_write _ _ _ hn, length_put .., fun k => ?_⟩
    unfold Store.put
    rw [read_write _ _ _ ha, Requests.get?_set]
    rw [Option.isNone_iff_eq_none] at h
    simp only [h, Option.getD_none]
  · rw [if_neg h]
    refine ⟨Keep.refl _ _, rfl, fun k => ?_⟩
    by_cases hk : k = key
    · subst hk
      cases hv : (s.read a).get? k with
      | none => simp [hv] at h
      | some v => simp
    · rw [if_neg hk]

theorem buildWeather_makes (e : Engine C) (s : Store C) (a : Addr) :
    Makes (fun s => buildWeather e s a) (fun d => ∀ key, d.get? key = expectedWeather e (s.read a) key) s := by
  unfold Makes buildWeather
  dsimp only
  set s1 := (s.select a ModelChain.weatherKeys).2 with hs1
  have k1 : Keep s.length s s1 := keep_alloc _ _ _
  have l1 : s1.length = s.length + 1 := by simp [hs1, Store.select, Store.alloc]
  set s2 := (s1.copy (s.select a ModelChain.weatherKeys).1).2 with hs2
  set w := (s1.copy (s.select a ModelChain.weatherKeys).1).1 with hw
  have k2 : Keep s.length s1 s2 := keep_alloc _ _ _
  have hwe : w = s.length + 1 := by rw [hw]; simp [Store.copy, Store.alloc, l1]
  have l2 : s2.length = s.length + 2 := by simp [hs2, Store.copy, Store.alloc, l1]
  have hw1 : s.length ≤ w := by rw [hwe]; exact Nat.le_succ _
  have hw2 : w < s2.length := by rw [hwe, l2]; exact Nat.lt_succ_self _
  have r2 : s2.read w = ModelChain.weatherKeys.filterMap fun k => ((s.read a).get? k).map fun v => (k, v) := by
    rw [hs2, hw]
    unfold Store.copy
    rw [read_alloc]
    exact read_alloc _ _
  obtain ⟨k3, l3, r3⟩ := putDefault s2 s.length w hw1 hw2 "wind_speed" e.zero
  obtain ⟨k4, l4, r4⟩ := putDefault (if ((s2.read w).get? "wind_speed").isNone then s2.put w "wind_speed" e.zero else s2)
    s.length w hw1 (by rw [l3]; exact hw2) "temp_air" e.twenty
  refine ⟨((k1.trans k2).trans k3).trans k4, hw1, by rw [l4, l3]; exact hw2, fun key => ?_⟩
  rw [r4, r3, r3, r2, get?_select, get?_select, get?_select]
  unfold expectedWeather ModelChain.weatherKeys
  by_cases h1 : key = "temp_air"
  · subst h1
    cases (s.read a).get? "temp_air" <;> simp
  · by_cases h2 : key = "wind_speed"
    · subst h2
      cases (s.read a).get? "wind_speed" <;> simp
    · rw [if_neg h1, if_neg h2]
      cases (s.read a).get? key <;> simp [h1, h2]

/-- The irradiance a run from plane-of-array data works with: the known columns of the caller's data. -/
def expectedIrrad (given : PyDict C) (key : String) : Option C :=
  if key ∈ ["poa_global", "poa_direct", "poa_diffuse"] then given.get? key else none

theorem buildIrrad_makes (s : Store C) (a : Addr) :
    Makes (fun s => buildIrrad s a) (fun d => ∀ key, d.get? key = expectedIrrad (s.read a) key) s := by
  unfold Makes buildIrrad
  dsimp only
  have l1 : (s.select a ModelChain.poaKeys).2.length = s.length + 1 := by simp [Store.select, Store.alloc]
  refine ⟨(keep_alloc _ _ _).trans (keep_alloc _ _ _), by simp [Store.copy, Store.alloc, l1], by simp [Store.copy, Store.alloc], fun key => ?_⟩
  unfold Store.copy
  rw [read_alloc]
  refine (congrArg (fun d => PyDict.get? d key) (read_alloc _ _)).trans ?_
  rw [get?_select]
  rfl

theorem copy_makes (s : Store C) (a : Addr) : Makes (fun s => s.copy a) (fun d => d = s.read a) s :=
  ⟨keep_alloc _ _ _, le_rfl, by simp [Store.copy, Store.alloc], read_alloc _ _⟩

theorem alloc_makes (s : Store C) (f : PyDict C) : Makes (fun s => s.alloc f) (fun d => d = f) s :=
  ⟨keep_alloc _ _ _, le_rfl, by simp [Store.alloc], read_alloc _ _⟩

/-- The frame of an array after resistive and other losses. -/
def afterLosses (e : Engine C) (c : Chain) (f : PyDict C) : PyDict C :=
  let f := if c.percent then f.set "p_mp" (e.ohmic f) else f
  if c.pvwattsLosses then f.map fun p => (p.1, e.losses p.2) else f

theorem runFromEffective_spec (e : Engine C) (c : Chain) (s : Store C) (weather total data : List Addr) (effective : List C) :
    ∃ frames : List (PyDict C), frames = e.dc effective (e.temperature (weather.map s.read) (total.map s.read) effective (data.map s.read)) ∧
      ∃ r s', runFromEffective e c s weather total data effective = (r, s') ∧ Keep s.length s s' ∧
        r.weather = weather ∧ r.total_irrad = total ∧ r.dc.Nodup ∧ (∀ a ∈ r.dc, s.length ≤ a ∧ a < s'.length) ∧
        List.Forall₂ (fun f a => s'.read a = afterLosses e c f) frames r.dc ∧
        ∃ a, r.ac = some a ∧ s.length ≤ a ∧ a < s'.length ∧ a ∉ r.dc ∧ s'.read a = e.ac (r.dc.map s'.read) := by
  refine ⟨_, rfl, _, _, rfl, ?_⟩
  set frames := e.dc effective (e.temperature (weather.map s.read) (total.map s.read) effective (data.map s.read)) with hfr
  obtain ⟨m1, m2, m3, m4⟩ := mapStore_makes (fun s f => s.alloc f) (fun f d => d = f) frames s s (Keep.refl _ _) le_rfl
    (fun f _ t _ => alloc_makes t f)
  set dc := (allocAll s frames).1 with hdc
  set s1 := (allocAll s frames).2 with hs1
  change Keep s.length s s1 at m1
  change ∀ a ∈ dc, s.length ≤ a ∧ a < s1.length at m2
  change dc.Nodup at m3
  change List.Forall₂ (fun f a => s1.read a = f) frames dc at m4
  have o : Keep s.length s1 (dcOhms e c s1 dc) ∧ (dcOhms e c s1 dc).length = s1.length ∧
      ∀ a ∈ dc, (dcOhms e c s1 dc).read a = if c.percent then (s1.read a).set "p_mp" (e.ohmic (s1.read a)) else s1.read a := by
    unfold dcOhms
    by_cases h : c.percent
    · rw [if_pos h]
      obtain ⟨w1, w2, w3, _⟩ := forStore_writes (fun f => f.set "p_mp" (e.ohmic f)) dc s1 s.length m2 m3
      refine ⟨w1, w2, fun a ha => ?_⟩
      rw [if_pos h]; exact w3 a ha
    · rw [if_neg h]
      exact ⟨Keep.refl _ _, rfl, fun a _ => by rw [if_neg h]⟩
  obtain ⟨o1, o2, o3⟩ := o
  set s2 := dcOhms e c s1 dc with hs2
  have q : Keep s.length s2 (pvwattsLosses e c s2 dc) ∧ (pvwattsLosses e c s2 dc).length = s2.length ∧
      ∀ a ∈ dc, (pvwattsLosses e c s2 dc).read a = if c.pvwattsLosses then (s2.read a).map (fun p => (p.1, e.losses p.2)) else s2.read a := by
    unfold pvwattsLosses
    by_cases h : c.pvwattsLosses
    · rw [if_pos h]
      obtain ⟨w1, w2, w3, _⟩ := forStore_writes (fun f => f.map fun p => (p.1, e.losses p.2)) dc s2 s.length
        (fun a ha => by rw [o2]; exact m2 a ha) m3
      refine ⟨w1, w2, fun a ha => ?_⟩
      rw [if_pos h]; exact w3 a ha
    · rw [if_neg h]
      exact ⟨Keep.refl _ _, rfl, fun a _ => by rw [if_neg h]⟩
  obtain ⟨q1, q2, q3⟩ := q
  set s3 := pvwattsLosses e c s2 dc with hs3
  have k3 : Keep s.length s s3 := (m1.trans o1).trans q1
  have l3 : s3.length = s1.length := by rw [q2, o2]
  change Keep s.length s (s3.alloc (e.ac (dc.map s3.read))).2 ∧ weather = weather ∧ total = total ∧ dc.Nodup ∧
    (∀ a ∈ dc, s.length ≤ a ∧ a < (s3.alloc (e.ac (dc.map s3.read))).2.length) ∧
    List.Forall₂ (fun f a => (s3.alloc (e.ac (dc.map s3.read))).2.read a = afterLosses e c f) frames dc ∧
    ∃ a, some (s3.alloc (e.ac (dc.map s3.read))).1 = some a ∧ s.length ≤ a ∧ a < (s3.alloc (e.ac (dc.map s3.read))).2.length ∧
      a ∉ dc ∧ (s3.alloc (e.ac (dc.map s3.read))).2.read a = e.ac (dc.map (s3.alloc (e.ac (dc.map s3.read))).2.read)
  have l4 : (s3.alloc (e.ac (dc.map s3.read))).2.length = s3.length + 1 := by simp [Store.alloc]
  have k4 : ∀ a < s3.length, (s3.alloc (e.ac (dc.map s3.read))).2.read a = s3.read a := fun a ha => keep_read (keep_alloc _ _ _) le_rfl a ha
  have hlt : ∀ a ∈ dc, a < s3.length := fun a ha => by rw [l3]; exact (m2 a ha).2
  refine ⟨k3.trans (keep_alloc _ _ _), rfl, rfl, m3, fun a ha => ⟨(m2 a ha).1, by rw [l4]; exact Nat.lt_succ_of_lt (hlt a ha)⟩, ?_, _, rfl, ?_, ?_, ?_, ?_⟩
  · have : ∀ (l : List (PyDict C)) (d : List Addr), List.Forall₂ (fun f a => s1.read a = f) l d → (∀ a ∈ d, a ∈ dc) →
        List.Forall₂ (fun f a => (s3.alloc (e.ac (dc.map s3.read))).2.read a = afterLosses e c f) l d := by
      intro l d h
      induction h with
      | nil => intro _; exact .nil
      | cons hfa _ ih =>
        intro hd
        refine .cons ?_ (ih fun a ha => hd a (by simp [ha]))
        have ha := hd _ (List.mem_cons_self ..)
        rw [k4 _ (hlt _ ha), q3 _ ha, o3 _ ha, hfa]
        rfl
    exact this _ _ m4 fun a ha => ha
  · have := (k3 le_rfl).1; simpa [Store.alloc] using this
  · simp [Store.alloc]
  · intro h; exact absurd (hlt _ h) (by simp [Store.alloc])
  · rw [read_alloc]
    congr 1
    exact List.map_congr_left fun a ha => (k4 a (hlt a ha)).symm

theorem keep_mono {n m : ℕ} {s t : Store C} (h : Keep m s t) (hnm : n ≤ m) (hm : m ≤ s.length) : Keep n s t := fun _ => by
  obtain ⟨h1, h2⟩ := h hm
  refine ⟨le_trans hnm h1, ?_⟩
  have := congrArg (List.take n) h2
  rwa [List.take_take, List.take_take, min_eq_left hnm] at this

/-! ### C187: runs -/

/-- What is said of every call: nothing that existed is changed; the result objects are new, all different, and exist. -/
def Clean (s : Store C) (out : Results × Store C) : Prop :=
  s.length ≤ out.2.length ∧ Unchanged s out.2 ∧ (∀ a ∈ out.1.objects, s.length ≤ a ∧ a < out.2.length) ∧ out.1.objects.Nodup

private theorem clean_of (e : Engine C) (c : Chain) (s s1 s2 : Store C) (weather total data : List Addr) (effective : List C)
    (k1 : Keep s.length s s1) (w1 : ∀ a ∈ weather, s.length ≤ a ∧ a < s1.length) (w2 : weather.Nodup)
    (k2 : Keep s1.length s1 s2) (t1 : ∀ a ∈ total, s1.length ≤ a ∧ a < s2.length) (t2 : total.Nodup) :
    Clean s (runFromEffective e c s2 weather total data effective) := by
  obtain ⟨frames, -, r, s', hr, k3, rw_, rt, d1, d2, -, a, ra, a1, a2, a3, -⟩ :=
    runFromEffective_spec e c s2 weather total data effective
  have h1 := (k1 le_rfl).1
  have h2 := (k2 le_rfl).1
  have h3 := (k3 le_rfl).1
  have kk : Keep s.length s s' := (k1.trans (keep_mono k2 h1 le_rfl)).trans (keep_mono k3 (le_trans h1 h2) le_rfl)
  rw [hr]
  refine ⟨(kk le_rfl).1, unchanged_of_keep kk, ?_, ?_⟩
  · intro x hx
    simp only [Results.objects, rw_, rt, ra, Option.toList_some, List.mem_append, List.mem_singleton] at hx
    rcases hx with ((hx | hx) | hx) | hx
    · exact ⟨(w1 x hx).1, lt_of_lt_of_le (w1 x hx).2 (le_trans h2 h3)⟩
    · exact ⟨le_trans h1 (t1 x hx).1, lt_of_lt_of_le (t1 x hx).2 h3⟩
    · exact ⟨le_trans (le_trans h1 h2) (d2 x hx).1, (d2 x hx).2⟩
    · subst hx; exact ⟨le_trans (le_trans h1 h2) a1, a2⟩
  · simp only [Results.objects, rw_, rt, ra, Option.toList_some]
    refine List.Nodup.append (List.Nodup.append (List.Nodup.append w2 t2 ?_) d1 ?_) (List.nodup_singleton a) ?_
    · intro x hx hy; exact absurd (w1 x hx).2 (not_lt.mpr (t1 x hy).1)
    · intro x hx hy
      rcases List.mem_append.mp hx with hx | hx
      · exact absurd (w1 x hx).2 (not_lt.mpr (le_trans h2 (d2 x hy).1))
      · exact absurd (t1 x hx).2 (not_lt.mpr (d2 x hy).1)
    · intro x hx hy
      rw [List.mem_singleton] at hy
      subst hy
      rcases List.mem_append.mp hx with hx | hx
      · rcases List.mem_append.mp hx with hx | hx
        · exact absurd (w1 x hx).2 (not_lt.mpr (le_trans h2 a1))
        · exact absurd (t1 x hx).2 (not_lt.mpr a1)
      · exact a3 hx

theorem completeFrame_writes (e : Engine C) (s : Store C) (w : Addr) : ∃ f : PyDict C, completeFrame e s w = s.write w f := by
  unfold completeFrame
  dsimp only
  split_ifs
  · exact ⟨_, rfl⟩
  · exact ⟨_, rfl⟩
  · exact ⟨_, rfl⟩
  · refine ⟨s.read w, ?_⟩
    by_cases h : w < s.length
    · apply List.ext_getElem? ; intro i
      simp only [Store.write, Store.read, List.getElem?_set, List.getD_eq_getElem?_getD]
      by_cases hi : w = i
      · subst hi; simp [h]
      · simp [hi]
    · simp [Store.write, List.set_eq_of_length_le (not_lt.mp h)]

theorem complete_keeps (e : Engine C) (n : ℕ) (l : List Addr) : ∀ (s : Store C), (∀ a ∈ l, n ≤ a) →
    Keep n s (forStore (completeFrame e) s l) ∧ (forStore (completeFrame e) s l).length = s.length := by
  induction l with
  | nil => intro s _; exact ⟨Keep.refl _ _, rfl⟩
  | cons x t ih =>
    intro s h
    obtain ⟨f, hf⟩ := completeFrame_writes e s x
    obtain ⟨i1, i2⟩ := ih (completeFrame e s x) (fun a ha => h a (by simp [ha]))
    refine ⟨Keep.trans (by rw [hf]; exact keep_write _ _ _ (h x (by simp))) i1, ?_⟩
    exact i2.trans (by rw [hf, length_write])

/-- **C187** (caller's data): no call changes an object that existed before it: not the caller's weather data, nor a module-level table, nor the
results of earlier calls; the objects in the results are new, and no two of them (two arrays, two kinds of results) are the same object. -/
theorem call_clean (k : Call) (e : Engine C) (c : Chain) (s : Store C) (data : List Addr) : Clean s (k.run' e c s data) := by
  cases k with
  | run =>
    obtain ⟨k1, w1, w2, -⟩ := mapStore_makes (buildWeather e) (fun _ _ => True) data s s (Keep.refl _ _) le_rfl
      (fun a _ t _ => let ⟨h1, h2, h3, _⟩ := buildWeather_makes e t a; ⟨h1, h2, h3, trivial⟩)
    set s1 := (mapStore (buildWeather e) s data).2
    set weather := (mapStore (buildWeather e) s data).1
    obtain ⟨k2, t1, t2, -⟩ := mapStore_makes (fun s f => s.alloc f) (fun f d => d = f)
      (e.irradiance (weather.map s1.read) (data.map s1.read)) s1 s1 (Keep.refl _ _) le_rfl (fun f _ t _ => alloc_makes t f)
    exact clean_of e c s s1 _ weather _ data _ k1 w1 w2 k2 t1 t2
  | fromPoa =>
    obtain ⟨k1, w1, w2, -⟩ := mapStore_makes (buildWeather e) (fun _ _ => True) data s s (Keep.refl _ _) le_rfl
      (fun a _ t _ => let ⟨h1, h2, h3, _⟩ := buildWeather_makes e t a; ⟨h1, h2, h3, trivial⟩)
    obtain ⟨k2, t1, t2, -⟩ := mapStore_makes buildIrrad (fun _ _ => True) data (mapStore (buildWeather e) s data).2 _ (Keep.refl _ _) le_rfl
      (fun a _ t _ => let ⟨h1, h2, h3, _⟩ := buildIrrad_makes t a; ⟨h1, h2, h3, trivial⟩)
    exact clean_of e c s _ _ _ _ data _ k1 w1 w2 k2 t1 t2
  | fromEffective =>
    obtain ⟨k1, w1, w2, -⟩ := mapStore_makes (buildWeather e) (fun _ _ => True) data s s (Keep.refl _ _) le_rfl
      (fun a _ t _ => let ⟨h1, h2, h3, _⟩ := buildWeather_makes e t a; ⟨h1, h2, h3, trivial⟩)
    obtain ⟨k2, t1, t2, -⟩ := mapStore_makes buildIrrad (fun _ _ => True) data (mapStore (buildWeather e) s data).2 _ (Keep.refl _ _) le_rfl
      (fun a _ t _ => let ⟨h1, h2, h3, _⟩ := buildIrrad_makes t a; ⟨h1, h2, h3, trivial⟩)
    exact clean_of e c s _ _ _ _ data _ k1 w1 w2 k2 t1 t2
  | complete =>
    obtain ⟨k1, w1, w2, -⟩ := mapStore_makes (fun s a => s.copy a) (fun _ _ => True) data s s (Keep.refl _ _) le_rfl
      (fun a _ t _ => let ⟨h1, h2, h3, _⟩ := copy_makes t a; ⟨h1, h2, h3, trivial⟩)
    obtain ⟨c1, c2⟩ := complete_keeps e s.length (mapStore (fun s a => s.copy a) s data).1 (mapStore (fun s a => s.copy a) s data).2
      (fun a ha => (w1 a ha).1)
    refine ⟨((k1.trans c1) le_rfl).1, unchanged_of_keep (k1.trans c1), ?_, ?_⟩
    · intro a ha
      have ha' : a ∈ (mapStore (fun s a => s.copy a) s data).1 := by simpa [Call.run', completeIrradiance, Results.objects] using ha
      exact ⟨(w1 a ha').1, lt_of_lt_of_eq (w1 a ha').2 c2.symm⟩
    · simpa [Call.run', completeIrradiance, Results.objects] using w2

/-- **C187** (histories): whatever happens afterwards — further runs of this or other chains on any data, new objects, the caller changing
objects of his own, also the data he gave — the results of a call keep their contents, unless he changes a result object itself. -/
theorem results_keep (k : Call) (e : Engine C) (c : Chain) (s : Store C) (data : List Addr) (events : List (Event C))
    (h : ∀ a f, Event.change a f ∈ events → a ∉ (k.run' e c s data).1.objects) :
    ∀ a ∈ (k.run' e c s data).1.objects,
      (events.foldl Event.step (k.run' e c s data).2).read a = (k.run' e c s data).2.read a := by
  obtain ⟨-, -, h2, -⟩ := call_clean k e c s data
  set objs := (k.run' e c s data).1.objects with ho
  have key : ∀ (ev : List (Event C)) (t : Store C), (∀ a f, Event.change a f ∈ ev → a ∉ objs) → (∀ a ∈ objs, a < t.length) →
      ∀ a ∈ objs, (ev.foldl Event.step t).read a = t.read a := by
    intro ev
    induction ev with
    | nil => intro t _ _ a _; rfl
    | cons x rest ih =>
      intro t hx ht a ha
      rw [List.foldl_cons]
      have hl : (∀ b < t.length, b < (Event.step t x).length) ∧ (Event.step t x).read a = t.read a := by
        cases x with
        | call k e c d =>
          obtain ⟨g1, g2, -, -⟩ := call_clean k e c t d
          exact ⟨fun b hb => lt_of_lt_of_le hb g1, g2 a (ht a ha)⟩
        | new f =>
          exact ⟨fun b hb => by simp only [Event.step, Store.alloc, List.length_append]; omega, keep_read (keep_alloc _ _ _) le_rfl a (ht a ha)⟩
        | change b f =>
          refine ⟨fun b hb => by simpa [Event.step, Store.write] using hb, ?_⟩
          exact read_write_ne _ _ _ _ (fun hba => hx b f (by simp) (hba ▸ ha))
      rw [ih _ (fun b f hb => hx b f (by simp [hb])) (fun b hb => hl.1 b (ht b hb)) a ha, hl.2]
  exact key events _ h (fun a ha => (h2 a ha).2)

private theorem weather_content (e : Engine C) (s : Store C) (data : List Addr) (hd : ∀ a ∈ data, a < s.length) (s' : Store C)
    (hs' : Keep (mapStore (buildWeather e) s data).2.length (mapStore (buildWeather e) s data).2 s') :
    List.Forall₂ (fun a w => ∀ key, (s'.read w).get? key = expectedWeather e (s.read a) key) data (mapStore (buildWeather e) s data).1 := by
  obtain ⟨-, w1, -, w3⟩ := mapStore_makes (buildWeather e) (fun a d => ∀ key, d.get? key = expectedWeather e (s.read a) key) data s s
    (Keep.refl _ _) le_rfl (fun a ha t ht => by
      have := buildWeather_makes e t a
      rwa [keep_read ht le_rfl a (hd a ha)] at this)
  generalize (mapStore (buildWeather e) s data).1 = ws at w1 w3 ⊢
  have hh : ∀ (l : List Addr) (m : List Addr), List.Forall₂ (fun a w => ∀ key, ((mapStore (buildWeather e) s data).2.read w).get? key =
      expectedWeather e (s.read a) key) l m → (∀ w ∈ m, w ∈ ws) →
      List.Forall₂ (fun a w => ∀ key, (s'.read w).get? key = expectedWeather e (s.read a) key) l m := by
    intro l m h
    induction h with
    | nil => intro _; exact .nil
    | cons h _ ih =>
      intro hm
      refine .cons (fun key => ?_) (ih fun w hw => hm w (by simp [hw]))
      rw [keep_read hs' le_rfl _ (w1 _ (hm _ (by simp))).2]
      exact h key
  exact hh _ _ w3 fun w hw => hw

/-- The three calls that compute power. -/
def Call.isRun : Call → Prop
  | .run => True | .fromPoa => True | .fromEffective => True | .complete => False

/-- **C187** (weather used): the weather of the results is the caller's, column by column, with the documented defaults for wind speed and air
temperature and without columns that are no weather. -/
theorem run_weather (k : Call) (hk : Call.isRun k) (e : Engine C) (c : Chain) (s : Store C) (data : List Addr) (hd : ∀ a ∈ data, a < s.length) :
    List.Forall₂ (fun a w => ∀ key, ((k.run' e c s data).2.read w).get? key = expectedWeather e (s.read a) key)
      data (k.run' e c s data).1.weather := by
  cases k with
  | complete => exact hk.elim
  | run =>
    set s1 := (mapStore (buildWeather e) s data).2 with hs1
    set weather := (mapStore (buildWeather e) s data).1
    obtain ⟨k2, -, -, -⟩ := mapStore_makes (fun s f => s.alloc f) (fun f d => d = f)
      (e.irradiance (weather.map s1.read) (data.map s1.read)) s1 s1 (Keep.refl _ _) le_rfl (fun f _ t _ => alloc_makes t f)
    set t := allocAll s1 (e.irradiance (weather.map s1.read) (data.map s1.read)) with ht
    obtain ⟨-, -, r, s', hr, k3, rw_, -⟩ := runFromEffective_spec e c t.2 weather t.1 data (e.effective (t.1.map t.2.read) (weather.map t.2.read))
    have e0 : Call.run' .run e c s data = (r, s') := hr
    rw [e0]
    dsimp only
    rw [rw_]
    exact weather_content e s data hd s' (Keep.trans (t := t.2) k2 (keep_mono k3 (k2 le_rfl).1 le_rfl))
  | fromPoa =>
    obtain ⟨k2, -, -, -⟩ := mapStore_makes buildIrrad (fun _ _ => True) data (mapStore (buildWeather e) s data).2 _ (Keep.refl _ _) le_rfl
      (fun a _ t _ => let ⟨h1, h2, h3, _⟩ := buildIrrad_makes t a; ⟨h1, h2, h3, trivial⟩)
    set t := mapStore buildIrrad (mapStore (buildWeather e) s data).2 data with ht
    obtain ⟨-, -, r, s', hr, k3, rw_, -⟩ := runFromEffective_spec e c t.2 (mapStore (buildWeather e) s data).1 t.1 data
      (e.effective (t.1.map t.2.read) ((mapStore (buildWeather e) s data).1.map t.2.read))
    have e0 : Call.run' .fromPoa e c s data = (r, s') := hr
    rw [e0]
    dsimp only
    rw [rw_]
    exact weather_content e s data hd s' (Keep.trans (t := t.2) k2 (keep_mono k3 (k2 le_rfl).1 le_rfl))
  | fromEffective =>
    obtain ⟨k2, -, -, -⟩ := mapStore_makes buildIrrad (fun _ _ => True) data (mapStore (buildWeather e) s data).2 _ (Keep.refl _ _) le_rfl
      (fun a _ t _ => let ⟨h1, h2, h3, _⟩ := buildIrrad_makes t a; ⟨h1, h2, h3, trivial⟩)
    set t := mapStore buildIrrad (mapStore (buildWeather e) s data).2 data with ht
    obtain ⟨-, -, r, s', hr, k3, rw_, -⟩ := runFromEffective_spec e c t.2 (mapStore (buildWeather e) s data).1 t.1 data
      (data.filterMap fun a => (t.2.read a).get? "effective_irradiance")
    have e0 : Call.run' .fromEffective e c s data = (r, s') := hr
    rw [e0]
    dsimp only
    rw [rw_]
    exact weather_content e s data hd s' (Keep.trans (t := t.2) k2 (keep_mono k3 (k2 le_rfl).1 le_rfl))

/-- **C187** (losses once): although losses are applied in place, each array's DC result has them exactly once: it is the computed frame after
resistive and then other losses, and AC power is computed from these. -/
theorem losses_once (k : Call) (hk : Call.isRun k) (e : Engine C) (c : Chain) (s : Store C) (data : List Addr) :
    ∃ effective temperature : List C,
      List.Forall₂ (fun f a => (k.run' e c s data).2.read a = afterLosses e c f) (e.dc effective temperature) (k.run' e c s data).1.dc ∧
      ∃ a, (k.run' e c s data).1.ac = some a ∧
        (k.run' e c s data).2.read a = e.ac ((e.dc effective temperature).map (afterLosses e c)) := by
  have key : ∀ (t : Store C) (weather total : List Addr) (eff : List C), k.run' e c s data = runFromEffective e c t weather total data eff →
      ∃ effective temperature : List C,
      List.Forall₂ (fun f a => (k.run' e c s data).2.read a = afterLosses e c f) (e.dc effective temperature) (k.run' e c s data).1.dc ∧
      ∃ a, (k.run' e c s data).1.ac = some a ∧
        (k.run' e c s data).2.read a = e.ac ((e.dc effective temperature).map (afterLosses e c)) := by
    intro t weather total eff h
    obtain ⟨frames, hf, r, s', hr, -, -, -, -, -, hd, a, ha, -, -, -, hac⟩ := runFromEffective_spec e c t weather total data eff
    rw [h, hr]
    refine ⟨eff, e.temperature (weather.map t.read) (total.map t.read) eff (data.map t.read), ?_, a, ha, ?_⟩
    · rw [← hf]; exact hd
    · rw [← hf, hac]
      congr 1
      have : ∀ (l : List (PyDict C)) (m : List Addr), List.Forall₂ (fun f a => s'.read a = afterLosses e c f) l m →
          m.map s'.read = l.map (afterLosses e c) := by
        intro l m h
        induction h with
        | nil => rfl
        | cons h _ ih => rw [List.map_cons, List.map_cons, h, ih]
      exact this _ _ hd
  cases k with
  | complete => exact hk.elim
  | run => exact key _ _ _ _ rfl
  | fromPoa => exact key _ _ _ _ rfl
  | fromEffective => exact key _ _ _ _ rfl

/-- What `complete_irradiance` makes of given columns: all of them, and the third of `ghi`, `dhi`, `dni` if exactly two are given. -/
def expectedComplete (e : Engine C) (given : PyDict C) (key : String) : Option C :=
  match given.get? key with
  | some v => some v
  | none =>
    if key ∈ ["ghi", "dhi", "dni"] ∧ ∀ k ∈ ["ghi", "dhi", "dni"], k ≠ key → (given.get? k).isSome then some (e.completed given key) else none

private def completedFrame (e : Engine C) (f : PyDict C) : PyDict C :=
  let has (k : String) : Bool := (f.get? k).isSome
  if has "ghi" && has "dhi" && !has "dni" then f.set "dni" (e.completed f "dni")
  else if has "dni" && has "dhi" && !has "ghi" then f.set "ghi" (e.completed f "ghi")
  else if has "dni" && has "ghi" && !has "dhi" then f.set "dhi" (e.completed f "dhi")
  else f

private theorem completeFrame_eq (e : Engine C) (s : Store C) (w : Addr) :
    completeFrame e s w = s.write w (completedFrame e (s.read w)) := by
  unfold completeFrame completedFrame
  dsimp only
  split_ifs
  · rfl
  · rfl
  · rfl
  · by_cases h : w < s.length
    · apply List.ext_getElem? ; intro i
      simp only [Store.write, Store.read, List.getElem?_set, List.getD_eq_getElem?_getD]
      by_cases hi : w = i
      · subst hi; simp [h]
      · simp [hi]
    · simp [Store.write, List.set_eq_of_length_le (not_lt.mp h)]

private theorem completedFrame_get (e : Engine C) (f : PyDict C) (key : String) :
    (completedFrame e f).get? key = expectedComplete e f key := by
  unfold completedFrame expectedComplete
  cases hg : f.get? "ghi" <;> cases hd : f.get? "dhi" <;> cases hn : f.get? "dni" <;>
    by_cases h1 : key = "ghi" <;> by_cases h2 : key = "dhi" <;> by_cases h3 : key = "dni" <;>
    simp_all [Requests.get?_set] <;> (try subst_vars) <;> (try (simp_all; done)) <;> cases f.get? key <;> rfl

/-- **C187** (completing): the result has the caller's columns, and the third irradiance component if exactly two are given. -/
theorem complete_content (e : Engine C) (c : Chain) (s : Store C) (data : List Addr) (hd : ∀ a ∈ data, a < s.length) :
    List.Forall₂ (fun a w => ∀ key, ((Call.run' .complete e c s data).2.read w).get? key = expectedComplete e (s.read a) key)
      data (Call.run' .complete e c s data).1.weather := by
  obtain ⟨-, w1, w2, w3⟩ := mapStore_makes (fun s a => s.copy a) (fun a d => d = s.read a) data s s (Keep.refl _ _) le_rfl
    (fun a ha t ht => by have := copy_makes t a; rwa [keep_read ht le_rfl a (hd a ha)] at this)
  have ef : completeFrame e = fun s w => s.write w (completedFrame e (s.read w)) := by
    funext s w; exact completeFrame_eq e s w
  have e1 : (Call.run' .complete e c s data).1.weather = (mapStore (fun s a => s.copy a) s data).1 := rfl
  have e2 : (Call.run' .complete e c s data).2 = forStore (fun s w => s.write w (completedFrame e (s.read w)))
      (mapStore (fun s a => s.copy a) s data).2 (mapStore (fun s a => s.copy a) s data).1 := by rw [← ef]; rfl
  rw [e1, e2]
  obtain ⟨-, -, f3, -⟩ := forStore_writes (completedFrame e) (mapStore (fun s a => s.copy a) s data).1 (mapStore (fun s a => s.copy a) s data).2
    s.length w1 w2
  generalize (mapStore (fun s a => s.copy a) s data).1 = ws at f3 w3 ⊢
  generalize (forStore (fun s w => s.write w (completedFrame e (s.read w))) (mapStore (fun s a => s.copy a) s data).2 ws) = s3 at f3 ⊢
  have hh : ∀ (l m : List Addr), List.Forall₂ (fun x a => (mapStore (fun s a => s.copy a) s data).2.read a = s.read x) l m →
      (∀ w ∈ m, w ∈ ws) → List.Forall₂ (fun a w => ∀ key, (s3.read w).get? key = expectedComplete e (s.read a) key) l m := by
    intro l m h
    induction h with
    | nil => intro _; exact .nil
    | cons h _ ih =>
      intro hm
      refine .cons (fun key => ?_) (ih fun w hw => hm w (by simp [hw]))
      rw [f3 _ (hm _ (by simp)), h]
      exact completedFrame_get e _ key
  exact hh _ _ w3 fun w hw => hw

/-! ### C188: tables, presets and dictionaries given by the caller -/

theorem update_spec (n : ℕ) (a : Addr) (hn : n ≤ a) (kw : PyDict C) : ∀ (s : Store C), a < s.length →
    Keep n s (s.update a kw) ∧ (s.update a kw).length = s.length ∧
    ((kw.map Prod.fst).Nodup → ∀ k, ((s.update a kw).read a).get? k = match kw.get? k with | some v => some v | none => (s.read a).get? k) := by
  induction kw with
  | nil => intro s _; exact ⟨Keep.refl _ _, rfl, fun _ k => rfl⟩
  | cons p t ih =>
    intro s ha
    obtain ⟨key, v⟩ := p
    obtain ⟨i1, i2, i3⟩ := ih (s.put a key v) (by rw [length_put]; exact ha)
    refine ⟨(keep_write s a _ hn).trans i1, i2.trans (length_put ..), fun hnd k => ?_⟩
    obtain ⟨hk, ht⟩ := List.nodup_cons.mp hnd
    refine (i3 ht k).trans ?_
    have h2 : (s.put a key v).read a = (s.read a).set key v := read_write _ _ _ ha
    rw [h2, Requests.get?_set]
    simp only [PyDict.get?]
    by_cases h : key = k
    · subst h
      have : PyDict.get? t key = none := (Requests.get?_none t key).mpr fun q hq he => hk (List.mem_map.mpr ⟨q, hq, he⟩)
      simp [this]
    · rw [if_neg h]
      have h' : k ≠ key := fun e => h e.symm
      cases PyDict.get? t k <;> simp [h, h']

/-- **C188** (copy, then change): making a configuration from a preset, evaluating a golden-section search or trimming solver options leaves the
dictionary given — and every other object — as it was, and returns a new dictionary with the caller's entries over the original ones. -/
theorem preset_clean (s : Store C) (config : Addr) (kwargs : PyDict C) (hn : (kwargs.map Prod.fst).Nodup) :
    Unchanged s (presetConfig s config kwargs).2 ∧ s.length ≤ (presetConfig s config kwargs).1 ∧
    ∀ k, ((presetConfig s config kwargs).2.read (presetConfig s config kwargs).1).get? k =
      match kwargs.get? k with | some v => some v | none => (s.read config).get? k := by
  obtain ⟨u1, u2, u3⟩ := update_spec s.length s.length le_rfl kwargs (s.copy config).2 (by simp [Store.copy, Store.alloc])
  refine ⟨unchanged_of_keep ((keep_alloc _ _ _).trans u1), le_rfl, fun k => ?_⟩
  refine (u3 hn k).trans ?_
  rw [show (s.copy config).2.read s.length = s.read config from read_alloc _ _]

/-- **C188** (presets, any history): after any number of constructions with any arguments, the configuration of the next one is its own arguments
over the unchanged module-level defaults. -/
theorem presets_history (s : Store C) (config : Addr) (hc : config < s.length) (history : List (Addr × PyDict C)) (kwargs : PyDict C)
    (hn : (kwargs.map Prod.fst).Nodup) (k : String) :
    let t := history.foldl (fun t h => (presetConfig t h.1 h.2).2) s
    ((presetConfig t config kwargs).2.read (presetConfig t config kwargs).1).get? k =
      match kwargs.get? k with | some v => some v | none => (s.read config).get? k := by
  have key : ∀ (h : List (Addr × PyDict C)) (t : Store C), config < t.length →
      (h.foldl (fun t h => (presetConfig t h.1 h.2).2) t).read config = t.read config := by
    intro h
    induction h with
    | nil => intro t _; rfl
    | cons x r ih =>
      intro t ht
      obtain ⟨u1, -, -⟩ := update_spec t.length t.length le_rfl x.2 (t.copy x.1).2 (by simp [Store.copy, Store.alloc])
      have k1 : Keep t.length t (presetConfig t x.1 x.2).2 := (keep_alloc _ _ _).trans u1
      rw [List.foldl_cons, ih _ (lt_of_lt_of_le ht (k1 le_rfl).1), keep_read k1 le_rfl _ ht]
  dsimp only
  rw [(preset_clean _ config kwargs hn).2.2 k, key history s hc]

/-- **C188**: a golden-section search does not write into the caller's dictionary. -/
theorem golden_clean (s : Store C) (params : Addr) (values : PyDict C) : Unchanged s (goldenDict s params values).2 := by
  obtain ⟨u1, -, -⟩ := update_spec s.length s.length le_rfl values (s.copy params).2 (by simp [Store.copy, Store.alloc])
  exact unchanged_of_keep ((keep_alloc _ _ _).trans u1)

theorem get?_filter (d : PyDict C) (x k : String) :
    PyDict.get? (d.filter fun p => p.1 ≠ x) k = if k = x then none else d.get? k := by
  induction d with
  | nil => simp [PyDict.get?]
  | cons p t ih =>
    obtain ⟨key, v⟩ := p
    by_cases h : key = x
    · rw [List.filter_cons_of_neg (by simp [h]), ih]
      by_cases hk : k = x
      · simp [hk]
      · have : ¬ key = k := fun e => hk (by rw [← e, h])
        simp [hk, PyDict.get?, this]
    · rw [List.filter_cons_of_pos (by simp [h])]
      simp only [PyDict.get?]
      by_cases hk : key = k
      · subst hk; simp [h]
      · simp only [if_neg hk]; exact ih

/-- **C188**: solver options are passed on without `full_output`, and the caller's dictionary keeps it. -/
theorem trimmed_clean (s : Store C) (kw : Addr) :
    Unchanged s (trimmedKwargs s kw).2 ∧ ∀ k, ((trimmedKwargs s kw).2.read (trimmedKwargs s kw).1).get? k =
      if k = "full_output" then none else (s.read kw).get? k := by
  refine ⟨unchanged_of_keep ((keep_alloc _ _ _).trans (keep_write _ _ _ le_rfl)), fun k => ?_⟩
  unfold trimmedKwargs
  dsimp only
  rw [read_write _ _ _ (by simp [Store.copy, Store.alloc]), show (s.copy kw).2.read (s.copy kw).1 = s.read kw from read_alloc _ _]
  exact get?_filter _ _ _

/-- **C188**: adding up irradiance components leaves the dictionary of sky components as it was. -/
theorem poa_clean (s : Store C) (sky : Addr) (rest : C → PyDict C) :
    ((s.read sky).get? "poa_sky_diffuse" = none → poaComponents s sky rest = .error (.keyError "poa_sky_diffuse")) ∧
    ∀ total, (s.read sky).get? "poa_sky_diffuse" = some total →
      ∃ a t, poaComponents s sky rest = .ok (a, t) ∧ Unchanged s t ∧ s.length ≤ a := by
  have h0 : (s.copy sky).2.read (s.copy sky).1 = s.read sky := read_alloc _ _
  constructor
  · intro h; simp only [poaComponents, h0, h]
  · intro total h
    refine ⟨_, _, by simp only [poaComponents, h0, h]; rfl, ?_, ?_⟩
    · exact unchanged_of_keep (((keep_alloc _ _ _).trans (keep_write _ _ _ le_rfl)).trans (keep_alloc _ _ _))
    · simp only [Store.alloc, Store.write, Store.copy, List.length_set, List.length_append]; omega

/-- **C188**: every request to MERRA-2 has its own parameters: those common to all and the name of its own variable, whatever was requested
before. -/
theorem merra2_own (s : Store C) (parameters : Addr) (hp : parameters < s.length) (names : List C) :
    Unchanged s (merra2Queries s parameters names).2 ∧ (merra2Queries s parameters names).1.Nodup ∧
    List.Forall₂ (fun n q => ∀ k, ((merra2Queries s parameters names).2.read q).get? k = if k = "data" then some n else (s.read parameters).get? k)
      names (merra2Queries s parameters names).1 := by
  obtain ⟨k1, -, n1, f1⟩ := mapStore_makes (fun s n => merra2Query s parameters n)
    (fun n d => ∀ k, d.get? k = if k = "data" then some n else (s.read parameters).get? k) names s s (Keep.refl _ _) le_rfl (by
      intro n _ t ht
      refine ⟨(keep_alloc _ _ _).trans (keep_write _ _ _ le_rfl), le_rfl, ?_, fun k => ?_⟩
      · simp [merra2Query, Store.put, Store.write, Store.copy, Store.alloc]
      · unfold merra2Query
        dsimp only
        unfold Store.put
        rw [read_write _ _ _ (by simp [Store.copy, Store.alloc]), Requests.get?_set,
          show (t.copy parameters).2.read (t.copy parameters).1 = t.read parameters from read_alloc _ _, keep_read ht le_rfl _ hp])
  exact ⟨unchanged_of_keep k1, n1, f1⟩

/-! ### C189: dictionaries of arrays and systems -/

private theorem orNew_spec (s : Store C) (x : Option Addr) :
    Keep s.length s (orNew s x).2 ∧ (∀ a, x = some a → (orNew s x).1 = a) ∧
    (x = none → (orNew s x).1 = s.length ∧ (orNew s x).2.length = s.length + 1 ∧ (orNew s x).2.read (orNew s x).1 = []) := by
  cases x with
  | none => exact ⟨keep_alloc _ _ _, by simp, fun _ => ⟨rfl, by simp [orNew, Store.alloc], read_alloc _ _⟩⟩
  | some a => exact ⟨Keep.refl _ _, by simp [orNew], by simp⟩

private theorem infer_keeps (s : Store C) (table : TempTable) (p : String) : Keep s.length s (inferTemperature s table p).2 := by
  unfold inferTemperature
  cases table.sapm.lookup p with
  | some a => exact Keep.refl _ _
  | none =>
    dsimp only
    split_ifs
    · exact Keep.refl _ _
    · exact Keep.refl _ _
    · exact Keep.refl _ _
    · exact keep_alloc _ _ _

private theorem newArray_keeps (s : Store C) (table : TempTable) (args : ArrayArgs) : Keep s.length s (newArray s table args).2 := by
  have k1 := (orNew_spec s args.module_parameters).1
  unfold newArray
  dsimp only
  set m := orNew s args.module_parameters
  have k2 : Keep s.length m.2 (temperatureDict m.2 table args).2 := by
    unfold temperatureDict
    cases args.temperature_model_parameters with
    | some a => exact Keep.refl _ _
    | none => exact keep_mono (infer_keeps m.2 table args.param_set) (k1 le_rfl).1 le_rfl
  have k12 := k1.trans k2
  exact k12.trans (keep_mono (orNew_spec _ args.array_losses_parameters).1 (k12 le_rfl).1 le_rfl)

/-- **C189** (separate): constructing an Array changes nothing that exists; parameter dictionaries that are not given are new and empty, so that no
two arrays share them and none is shared with a default; those that are given are kept, not copied. -/
theorem array_dicts (s : Store C) (table : TempTable) (args : ArrayArgs) :
    Unchanged s (newArray s table args).2 ∧
    (args.module_parameters = none → s.length ≤ (newArray s table args).1.module_parameters ∧
      (newArray s table args).1.module_parameters < (newArray s table args).2.length ∧
      (newArray s table args).2.read (newArray s table args).1.module_parameters = []) ∧
    (args.array_losses_parameters = none → s.length ≤ (newArray s table args).1.array_losses_parameters ∧
      (newArray s table args).1.array_losses_parameters < (newArray s table args).2.length ∧
      (newArray s table args).2.read (newArray s table args).1.array_losses_parameters = []) ∧
    (args.module_parameters = none → args.array_losses_parameters = none →
      (newArray s table args).1.module_parameters ≠ (newArray s table args).1.array_losses_parameters) ∧
    (∀ a, args.module_parameters = some a → (newArray s table args).1.module_parameters = a) ∧
    (∀ a, args.temperature_model_parameters = some a → (newArray s table args).1.temperature_model_parameters = a) ∧
    ∀ a, args.array_losses_parameters = some a → (newArray s table args).1.array_losses_parameters = a := by
  refine ⟨unchanged_of_keep (newArray_keeps s table args), ?_⟩
  obtain ⟨k1, m1, m2⟩ := orNew_spec s args.module_parameters
  unfold newArray
  dsimp only
  set m := orNew s args.module_parameters with hm
  set t := temperatureDict m.2 table args with ht
  have k2 : Keep m.2.length m.2 t.2 := by
    rw [ht]
    unfold temperatureDict
    cases args.temperature_model_parameters with
    | some a => exact Keep.refl _ _
    | none => exact infer_keeps m.2 table args.param_set
  obtain ⟨k3, l1, l2⟩ := orNew_spec t.2 args.array_losses_parameters
  set l := orNew t.2 args.array_losses_parameters with hl
  have n1 := (k1 le_rfl).1
  have n2 := (k2 le_rfl).1
  have n3 := (k3 le_rfl).1
  refine ⟨fun h => ?_, fun h => ?_, fun h1 h2 => ?_, m1, fun a ha => by rw [ht]; unfold temperatureDict; rw [ha], l1⟩
  · obtain ⟨e1, e2, e3⟩ := m2 h
    have hlt : m.1 < m.2.length := by rw [e1, e2]; exact Nat.lt_succ_self _
    refine ⟨e1.ge, lt_of_lt_of_le hlt (le_trans n2 n3), ?_⟩
    rw [keep_read k3 le_rfl _ (lt_of_lt_of_le hlt n2), keep_read k2 le_rfl _ hlt, e3]
  · obtain ⟨e1, e2, e3⟩ := l2 h
    exact ⟨by rw [e1]; exact le_trans n1 n2, by rw [e1, e2]; exact Nat.lt_succ_self _, e3⟩
  · obtain ⟨e1, e2, -⟩ := m2 h1
    obtain ⟨f1, -, -⟩ := l2 h2
    rw [e1, f1]
    intro he
    have h5 : s.length + 1 ≤ t.2.length := by rw [← e2]; exact n2
    have h6 : (s.length : ℕ) = t.2.length := he
    omega

/-- **C189** (two arrays): changing the module or loss parameters of an array made with default ones does not change those of another array made
before or after it. -/
theorem arrays_separate (s : Store C) (table : TempTable) (p q : String) (d : PyDict C) :
    let x := newArray s table { param_set := p }
    let y := newArray x.2 table { param_set := q }
    (y.2.write x.1.module_parameters d).read y.1.module_parameters = [] ∧
    (y.2.write x.1.array_losses_parameters d).read y.1.array_losses_parameters = [] ∧
    (y.2.write y.1.module_parameters d).read x.1.module_parameters = [] := by
  dsimp only
  obtain ⟨-, a1, a2, -⟩ := array_dicts s table { param_set := p }
  obtain ⟨b0, b1, b2, -⟩ := array_dicts (newArray s table { param_set := p }).2 table { param_set := q }
  obtain ⟨-, a12, a13⟩ := a1 rfl
  obtain ⟨-, a22, -⟩ := a2 rfl
  obtain ⟨b11, -, b13⟩ := b1 rfl
  obtain ⟨b21, -, b23⟩ := b2 rfl
  refine ⟨?_, ?_, ?_⟩
  · rw [read_write_ne _ _ _ _ (fun h => absurd (lt_of_lt_of_le a12 b11) (by rw [h]; exact lt_irrefl _)), b13]
  · rw [read_write_ne _ _ _ _ (fun h => absurd (lt_of_lt_of_le a22 b21) (by rw [h]; exact lt_irrefl _)), b23]
  · rw [read_write_ne _ _ _ _ (fun h => absurd (lt_of_lt_of_le a12 b11) (by rw [h]; exact lt_irrefl _)), b0 _ a12, a13]

/-- **C189** (finding): temperature parameters that are inferred from the mounting are not separate: they are the entry of the module-level table.
Changing them in one array changes them in the table, in every other array with the same mounting, and in arrays constructed later. -/
theorem inferred_shared (s s' : Store C) (table : TempTable) (args args' : ArrayArgs) (a : Addr)
    (h1 : args.temperature_model_parameters = none) (h2 : args'.temperature_model_parameters = none)
    (h3 : table.sapm.lookup args.param_set = some a) (h4 : args'.param_set = args.param_set) :
    (newArray s table args).1.temperature_model_parameters = a ∧ (newArray s' table args').1.temperature_model_parameters = a := by
  unfold newArray temperatureDict inferTemperature
  dsimp only
  rw [h1, h2, h4, h3]
  exact ⟨rfl, rfl⟩

/-- ... so a change in one array is seen by an array constructed later. -/
theorem inferred_leaks (s : Store C) (table : TempTable) (args : ArrayArgs) (a : Addr) (ha : a < s.length) (d : PyDict C)
    (h1 : args.temperature_model_parameters = none) (h3 : table.sapm.lookup args.param_set = some a) :
    let x := newArray s table args
    let t := x.2.write x.1.temperature_model_parameters d
    let y := newArray t table args
    y.2.read y.1.temperature_model_parameters = d := by
  dsimp only
  obtain ⟨e1, e2⟩ := inferred_shared s ((newArray s table args).2.write (newArray s table args).1.temperature_model_parameters d) table args args a
    h1 h1 h3 rfl
  rw [e2, e1]
  have hl : a < (newArray s table args).2.length := lt_of_lt_of_le ha ((newArray_keeps s table args) le_rfl).1
  rw [keep_read (newArray_keeps _ table args) le_rfl a (by rw [length_write]; exact hl), read_write _ _ _ hl]

/-- **C189** (finding): the same holds for the PVsyst sets, chosen by the part of the name that occurs first in the order `freestanding`, `insulated`,
`semi_integrated`; only a name with none of them gets a dictionary of its own, and that one is empty. -/
theorem inferred_pvsyst (s : Store C) (table : TempTable) (args : ArrayArgs)
    (h1 : args.temperature_model_parameters = none) (h3 : table.sapm.lookup args.param_set = none) :
    let has (w : String) : Prop := ∃ pre post : List Char, args.param_set.toList = pre ++ w.toList ++ post
    let x := newArray s table args
    (has "freestanding" → x.1.temperature_model_parameters = table.freestanding) ∧
    (¬ has "freestanding" → has "insulated" → x.1.temperature_model_parameters = table.insulated) ∧
    (¬ has "freestanding" → ¬ has "insulated" → has "semi_integrated" → x.1.temperature_model_parameters = table.semi_integrated) ∧
    (¬ has "freestanding" → ¬ has "insulated" → ¬ has "semi_integrated" →
      s.length ≤ x.1.temperature_model_parameters ∧ x.2.read x.1.temperature_model_parameters = []) := by
  dsimp only
  simp only [← Pvlib.Props.ArrayClass.hasSub_iff]
  obtain ⟨k1, -, -⟩ := orNew_spec s args.module_parameters
  have n1 := (k1 le_rfl).1
  unfold newArray temperatureDict inferTemperature
  dsimp only
  rw [h1, h3]
  dsimp only
  refine ⟨fun a => by rw [if_pos a], fun a b => by rw [if_neg a, if_pos b], fun a b c => by rw [if_neg a, if_neg b, if_pos c], fun a b c => ?_⟩
  rw [if_neg a, if_neg b, if_neg c]
  set m := orNew s args.module_parameters
  refine ⟨n1, ?_⟩
  have e1 : (m.2.alloc []).1 = m.2.length := rfl
  have e2 : (m.2.alloc []).2.length = m.2.length + 1 := by simp [Store.alloc]
  rw [keep_read (orNew_spec (m.2.alloc []).2 args.array_losses_parameters).1 le_rfl _ (by rw [e1, e2]; exact Nat.lt_succ_self _)]
  exact read_alloc _ _

example (s : Store C) : (newArray s ⟨[], 0, 1, 2⟩ { param_set := "freestanding_None" }).1.temperature_model_parameters = 0 :=
  (inferred_pvsyst s ⟨[], 0, 1, 2⟩ { param_set := "freestanding_None" } rfl rfl).1 ⟨[], "_None".toList, by decide +kernel⟩

/-- **C189** (systems): a PVSystem made from its own arguments changes nothing that exists; the losses of its array are a dictionary of their own with
the entry `dc_ohmic_percent` only, so changing the system's losses afterwards does not change those of the array. -/
theorem system_losses (s : Store C) (table : TempTable) (args : ArrayArgs) (inverter : Option Addr) (losses : Addr) (hl : losses < s.length)
    (d : PyDict C) :
    let y := newSystem s table args inverter (some losses)
    Unchanged s y.2 ∧ y.1.losses_parameters = losses ∧
    y.2.read y.1.array.array_losses_parameters = buildKwargs ["dc_ohmic_percent"] (s.read losses) ∧
    (y.2.write y.1.losses_parameters d).read y.1.array.array_losses_parameters = buildKwargs ["dc_ohmic_percent"] (s.read losses) := by
  dsimp only
  unfold newSystem
  dsimp only
  set l := s.alloc (buildKwargs ["dc_ohmic_percent"] (s.read losses)) with hl0
  have k0 : Keep s.length s l.2 := keep_alloc _ _ _
  have hl1 : l.1 = s.length := rfl
  have hl2 : l.2.length = s.length + 1 := by simp [hl0, Store.alloc]
  have hl3 : l.2.read l.1 = buildKwargs ["dc_ohmic_percent"] (s.read losses) := read_alloc _ _
  have hlt : l.1 < l.2.length := by rw [hl1, hl2]; exact Nat.lt_succ_self _
  set arr := newArray l.2 table { args with array_losses_parameters := some l.1 } with harr
  have ka : Keep l.2.length l.2 arr.2 := newArray_keeps _ _ _
  obtain ⟨_, _, _, _, _, _, hal⟩ := array_dicts l.2 table { args with array_losses_parameters := some l.1 }
  have hal' : arr.1.array_losses_parameters = l.1 := hal l.1 rfl
  obtain ⟨ki, -, -⟩ := orNew_spec arr.2 inverter
  set i := orNew arr.2 inverter with hi
  have e0 : orNew i.2 (some losses) = (losses, i.2) := rfl
  rw [e0]
  dsimp only
  have n1 := (ka le_rfl).1
  have r1 : i.2.read l.1 = buildKwargs ["dc_ohmic_percent"] (s.read losses) := by
    rw [keep_read ki le_rfl _ (lt_of_lt_of_le hlt n1), keep_read ka le_rfl _ hlt, hl3]
  have kk : Keep s.length s i.2 := (k0.trans (keep_mono ka (k0 le_rfl).1 le_rfl)).trans
    (keep_mono ki (le_trans (k0 le_rfl).1 n1) le_rfl)
  refine ⟨unchanged_of_keep kk, rfl, by rw [hal', r1], ?_⟩
  rw [hal', read_write_ne _ _ _ _ (fun h => by rw [hl1] at h; rw [h] at hl; exact lt_irrefl _ hl), r1]

/-! ### The calendar -/

/-- Python's `calendar.mdays`. -/
def calendarMdays : PyDict ℝ :=
  [("0", 0), ("1", 31), ("2", 28), ("3", 31), ("4", 30), ("5", 31), ("6", 30), ("7", 31), ("8", 31), ("9", 30), ("10", 31), ("11", 30), ("12", 31)]

private theorem months_once (t : Store ℝ) (m : Addr) (hm : m < t.length) (h : t.read m = calendarMdays) (leap : Bool) :
    Keep t.length t (monthMiddlesStore t m leap).2 ∧ (monthMiddlesStore t m leap).1 = Clearsky.monthMiddles leap := by
  have k1 : Keep t.length t (t.alloc ((t.read m).drop 1)).2 := keep_alloc _ _ _
  have hl : (t.alloc ((t.read m).drop 1)).1 < (t.alloc ((t.read m).drop 1)).2.length := by simp [Store.alloc]
  have r1 : (t.alloc ((t.read m).drop 1)).2.read (t.alloc ((t.read m).drop 1)).1 = calendarMdays.drop 1 := by rw [read_alloc, h]
  have hne : (t.alloc ((t.read m).drop 1)).1 ≠ m := fun e => absurd hm (by rw [← e]; simp [Store.alloc])
  have rm : (t.alloc ((t.read m).drop 1)).2.read m = calendarMdays := by rw [keep_read k1 le_rfl _ hm, h]
  unfold monthMiddlesStore
  dsimp only
  cases leap with
  | false =>
    rw [if_neg (by simp)]
    refine ⟨k1, ?_⟩
    rw [r1, rm]
    simp [calendarMdays, Clearsky.monthMiddles, Clearsky.monthDays, PyDict.get?]
  | true =>
    rw [if_pos rfl]
    refine ⟨k1.trans (keep_write _ _ _ le_rfl), ?_⟩
    unfold Store.put
    rw [read_write _ _ _ hl, read_write_ne _ _ _ _ hne, r1, rm]
    simp [calendarMdays, Clearsky.monthMiddles, Clearsky.monthDays, PyDict.get?, PyDict.set]
    norm_num

/-- **C188** (calendar): interpolating turbidity over any sequence of years, leap or not, leaves Python's calendar as it is and gives each year its own
month lengths. -/
theorem months_history (s : Store ℝ) (m : Addr) (hm : m < s.length) (h : s.read m = calendarMdays) (years : List Bool) (leap : Bool) :
    let t := years.foldl (fun t y => (monthMiddlesStore t m y).2) s
    t.read m = calendarMdays ∧ (monthMiddlesStore t m leap).1 = Clearsky.monthMiddles leap := by
  dsimp only
  have key : ∀ (ys : List Bool) (t : Store ℝ), m < t.length → t.read m = calendarMdays →
      m < (ys.foldl (fun t y => (monthMiddlesStore t m y).2) t).length ∧
      (ys.foldl (fun t y => (monthMiddlesStore t m y).2) t).read m = calendarMdays := by
    intro ys
    induction ys with
    | nil => intro t h1 h2; exact ⟨h1, h2⟩
    | cons y r ih =>
      intro t h1 h2
      obtain ⟨k, -⟩ := months_once t m h1 h2 y
      exact ih _ (lt_of_lt_of_le h1 (k le_rfl).1) (by rw [keep_read k le_rfl _ h1, h2])
  obtain ⟨h1, h2⟩ := key years s hm h
  exact ⟨h2, (months_once _ m h1 h2 leap).2⟩

/-! ### Concrete cases -/

/-- A small engine over natural numbers: irradiance is the sum of components, DC power ten times it, 3 lost in wires, the rest halved. -/
def demo : Engine ℕ where
  zero := 0
  twenty := 20
  completed f k := f.length + k.length
  irradiance ws _ := ws.map fun w => [("poa_global", (w.map Prod.snd).sum)]
  effective ts _ := ts.map fun t => (t.map Prod.snd).sum
  temperature _ _ eff _ := eff
  dc eff _ := eff.map fun x => [("i_mp", x), ("p_mp", 10 * x)]
  ohmic f := (PyDict.get? f "p_mp").getD 0 - 3
  losses x := x / 2
  ac dcs := [("ac", (dcs.map fun f => (PyDict.get? f "p_mp").getD 0).sum)]

/-- The caller's two frames: one without wind speed, one without air temperature. -/
def demoStore : Store ℕ :=
  [[("ghi", 5), ("dni", 6), ("dhi", 7), ("note", 1), ("temp_air", 12)], [("ghi", 1), ("dni", 2), ("dhi", 3), ("wind_speed", 4)]]

example : Clean demoStore (Call.run' .run demo ⟨true, true⟩ demoStore [0, 1]) := call_clean .run demo ⟨true, true⟩ demoStore [0, 1]

example : ((Call.run' .run demo ⟨true, true⟩ demoStore [0, 1]).1.dc.map (Call.run' .run demo ⟨true, true⟩ demoStore [0, 1]).2.read) =
    [[("i_mp", 15), ("p_mp", 148)], [("i_mp", 15), ("p_mp", 148)]] := rfl

example : ((Call.run' .run demo ⟨true, true⟩ demoStore [0, 1]).1.weather.map (Call.run' .run demo ⟨true, true⟩ demoStore [0, 1]).2.read) =
    [[("ghi", 5), ("dhi", 7), ("dni", 6), ("temp_air", 12), ("wind_speed", 0)],
     [("ghi", 1), ("dhi", 3), ("dni", 2), ("wind_speed", 4), ("temp_air", 20)]] := rfl

example := run_weather .run trivial demo ⟨true, true⟩ demoStore [0, 1] (by decide)
example := losses_once .fromPoa trivial demo ⟨true, true⟩ demoStore [0, 1]
example := complete_content demo ⟨true, true⟩ [[("ghi", 5), ("dhi", 7)]] [0] (by decide)

/-- Two runs and a change of the caller's data in between: the first results stay. -/
example := results_keep .run demo ⟨true, true⟩ demoStore [0, 1]
  [.change 0 [("ghi", 900)], .call .fromEffective demo ⟨false, true⟩ [0], .new []] (by
    intro a f h
    simp only [List.mem_cons, Event.change.injEq, List.not_mem_nil, or_false, reduceCtorEq] at h
    obtain ⟨rfl, -⟩ := h
    decide)

example := presets_history [[("dc_model", "pvwatts"), ("aoi_model", "physical")]] 0 (by decide) [(0, [("dc_model", "sapm")])]
  [("aoi_model", "no_loss")] (by decide) "dc_model"

/-- The table of temperature parameters at addresses 0 to 6. -/
def demoTable : TempTable :=
  ⟨[("open_rack_glass_glass", 0), ("close_mount_glass_glass", 1), ("open_rack_glass_polymer", 2), ("insulated_back_glass_polymer", 3)], 4, 5, 6⟩

example := inferred_leaks [[("a", (3 : ℕ)), ("b", 5), ("deltaT", 3)]] demoTable { param_set := "open_rack_glass_glass" } 0 (by decide)
  [("a", 4), ("b", 5), ("deltaT", 3)] rfl rfl
example := arrays_separate ([[], [], [], [], [], [], []] : Store ℕ) demoTable "open_rack_glass_glass" "None_None" [("pdc0", 220)]
example := system_losses [[("dc_ohmic_percent", 3), ("soiling", 2)]] demoTable {} none 0 (by decide) ([] : PyDict ℕ)
example := months_history [calendarMdays] 0 (by decide) rfl [true, true, false] true
example := merra2_own [[("location", 1), ("time", 2)]] 0 (by decide) [3, 4, 5]

end Pvlib.Props.Store
end
