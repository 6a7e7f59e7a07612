import Verif.Model.PvSystem

/-! # Properties C84 (construction) and C85 (per-array methods of `PVSystem`) -/

noncomputable section
open scoped Classical
namespace Pvlib.Props.PvSystem
open Fl Pvlib.Tools Pvlib.PvFunctions Pvlib.PvSystem

/-! ### C84: construction -/

/-- **C84**: a `PVSystem` always has at least one `Array`. -/
theorem system_nonempty {arrays : ArraysArg} {s : SingleArgs} {inv loss : Option (PyDict PVal)} {sys : System}
    (h : mkSystem arrays s inv loss = .ok sys) : sys.arrays ≠ [] := by
  unfold mkSystem at h
  cases arrays with
  | none => simp only [Except.ok.injEq] at h; subst h; simp
  | one a => simp only [Except.ok.injEq] at h; subst h; simp
  | many as =>
    by_cases h0 : as.length = 0
    · simp [h0] at h
    · simp only [h0, if_false, Except.ok.injEq] at h
      subst h
      intro h1; exact h0 (by simpa using h1)

example (s : SingleArgs) : (⟨[mkArray (.fixed 30 180 none none)], [], []⟩ : System).arrays ≠ [] :=
  system_nonempty (arrays := .many [mkArray (.fixed 30 180 none none)]) (s := s) (inv := none) (loss := none) rfl

/-- **C84**: an empty sequence of arrays is refused, whatever the other arguments. -/
theorem system_empty (s : SingleArgs) (inv loss : Option (PyDict PVal)) :
    mkSystem (.many []) s inv loss = .error .valueError := by simp [mkSystem]

/-- **C84**: arrays that are given are kept, in order, and the arguments describing a single array are ignored; dicts that are
not given are empty. -/
theorem system_keeps (as : List PvArr) (h : as ≠ []) (s : SingleArgs) (inv loss : Option (PyDict PVal)) :
    mkSystem (.many as) s inv loss = .ok ⟨as, inv.getD [], loss.getD []⟩ := by
  have : as.length ≠ 0 := by simpa using h
  simp [mkSystem, this]

/-- A two-array system, for the examples. -/
def demoSys : System := ⟨[mkArray (.fixed 30 180 none none), mkArray (.fixed 10 90 none none)], [], []⟩
example := system_keeps demoSys.arrays (by simp [demoSys]) (inv := none) (loss := some [("soiling", .num (fin 3))])

theorem system_one (a : PvArr) (s : SingleArgs) (inv loss : Option (PyDict PVal)) :
    mkSystem (.one a) s inv loss = mkSystem (.many [a]) s inv loss := by simp [mkSystem]

/-- **C84**: without arrays, the system has exactly one, on a fixed mount with the given tilt, azimuth and racking model; only
`dc_ohmic_percent` of the losses is handed to the array. -/
theorem system_default (s : SingleArgs) (inv loss : Option (PyDict PVal)) :
    ∃ a, mkSystem .none s inv loss = .ok ⟨[a], inv.getD [], loss.getD []⟩ ∧
      a.mount = .fixed s.surface_tilt s.surface_azimuth s.racking_model none ∧
      a.module_parameters = s.module_parameters.getD [] ∧
      a.modules_per_string = s.modules_per_string ∧ a.strings = s.strings_per_inverter ∧
      (∀ k, a.array_losses_parameters.get? k = if k = "dc_ohmic_percent" then (loss.getD []).get? k else none) := by
  refine ⟨_, rfl, rfl, rfl, rfl, rfl, ?_⟩
  intro k
  cases loss with
  | none => simp [mkArray, PyDict.get?]
  | some l =>
    simp only [mkArray, Option.getD_some, buildKwargs, List.foldl, kwargsStep]
    by_cases hk : k = "dc_ohmic_percent"
    · subst hk
      cases hd : PyDict.get? l "dc_ohmic_percent" <;> simp [PyDict.get?, PyDict.set]
    · cases hd : PyDict.get? l "dc_ohmic_percent" <;> simp [PyDict.get?, PyDict.set, hk, Ne.symm hk]

/-- **C84**: the albedo of an array: the one given; else the one of its surface type; else 0.25. -/
theorem array_albedo (m : Mount) (albedo : Option Fl) (st mod mt : Option String) (mp tp al : Option (PyDict PVal)) (n k : Fl) :
    (mkArray m albedo st mod mt mp tp n k al).albedo =
      match albedo, st with
      | some x, _ => x
      | none, some s => (Irradiance.surfaceAlbedos.lookup s).getD (fin 0.25)
      | none, none => fin 0.25 := by
  cases albedo <;> cases st <;> rfl

/-! ### C85: per-array values and results -/

/-- What the user supplies, per array: a tuple with one entry per array; or one value that is not a tuple, allowed when there is
one array, or when the quantity may be shared by the whole system. -/
def Supplies {α : Type} (n : ℕ) (wide : Prop) (v : PerArray α) (xs : List α) : Prop :=
  match v with
  | .tuple ys => ys.length = n ∧ xs = ys
  | .one x => (wide ∨ n = 1) ∧ xs = List.replicate n x

/-- A tuple of one result is returned as the bare result, unless the caller asked otherwise. -/
def wrap {β : Type} : Bool → List β → Result β
  | true, [b] => .single b
  | _, ys => .tuple ys

/-- **C85**: per-array parameters are accepted exactly when they are supplied as the documentation says ... -/
theorem validate_iff {α : Type} (sys : System) (v : PerArray α) (wide : Bool) (xs : List α) :
    validatePerArray sys v wide = .ok xs ↔ Supplies sys.arrays.length (wide = true) v xs := by
  cases v with
  | tuple ys =>
    by_cases h : ys.length = sys.arrays.length <;> simp [validatePerArray, Supplies, h, eq_comm]
  | one x =>
    cases wide
    · by_cases h : 1 = sys.arrays.length
      · simp [validatePerArray, Supplies, ← h, eq_comm]
      · simp [validatePerArray, Supplies, h, Ne.symm h]
    · simp [validatePerArray, Supplies, eq_comm]

/-- ... and refused with a ValueError otherwise. -/
theorem validate_error {α : Type} (sys : System) (v : PerArray α) (wide : Bool)
    (h : ¬ ∃ xs, Supplies sys.arrays.length (wide = true) v xs) : validatePerArray sys v wide = .error .valueError := by
  cases hv : validatePerArray sys v wide with
  | ok xs => exact absurd ⟨xs, (validate_iff sys v wide xs).mp hv⟩ h
  | error e =>
    unfold validatePerArray at hv
    split at hv <;> split at hv <;> try split at hv
    all_goals simp_all

example := validate_error demoSys (.tuple [fin 1]) true (by rintro ⟨xs, h, -⟩; simp [demoSys] at h)

theorem supplies_length {α : Type} {n : ℕ} {wide : Prop} {v : PerArray α} {xs : List α} (h : Supplies n wide v xs) :
    xs.length = n := by
  cases v <;> simp [Supplies] at h <;> simp [h]

theorem collect_ok_iff {β : Type} (xs : List (Except PyErr β)) (ys : List β) : collect xs = .ok ys ↔ xs = ys.map .ok := by
  induction xs generalizing ys with
  | nil => cases ys <;> simp [collect]
  | cons x xs ih =>
    cases x with
    | error e => cases ys <;> simp [collect]
    | ok b =>
      simp only [collect]
      cases hc : collect xs with
      | error e =>
        cases ys with
        | nil => simp [Except.bind]
        | cons y ys =>
          simp only [Except.bind, List.map_cons, List.cons.injEq, Except.ok.injEq, reduceCtorEq, false_iff, not_and]
          intro _ h
          rw [(ih ys).mpr h] at hc; cases hc
      | ok bs =>
        cases ys with
        | nil => simp [Except.bind]
        | cons y ys =>
          have := ih ys
          rw [hc] at this
          simp only [Except.bind, List.map_cons, List.cons.injEq, Except.ok.injEq] at this ⊢
          rw [← this]

theorem collect_error_iff {β : Type} (xs : List (Except PyErr β)) (e : PyErr) :
    collect xs = .error e ↔ ∃ (ys : List β) (rest : List (Except PyErr β)), xs = ys.map .ok ++ .error e :: rest := by
  induction xs with
  | nil => simp [collect]
  | cons x xs ih =>
    cases x with
    | error e' =>
      simp only [collect, Except.error.injEq]
      constructor
      · rintro rfl; exact ⟨[], xs, rfl⟩
      · rintro ⟨ys, rest, h⟩
        cases ys with
        | nil => simpa using (List.cons.inj h).1
        | cons y ys => simp at h
    | ok b =>
      simp only [collect]
      constructor
      · intro h
        cases hc : collect xs with
        | ok bs => rw [hc] at h; simp [Except.bind] at h
        | error e' =>
          rw [hc] at h ih
          simp only [Except.bind, Except.error.injEq] at h
          subst h
          obtain ⟨ys, rest, hx⟩ := ih.mp rfl
          exact ⟨b :: ys, rest, by simp [hx]⟩
      · rintro ⟨ys, rest, h⟩
        cases ys with
        | nil => simp at h
        | cons y ys =>
          simp only [List.map_cons, List.cons_append, List.cons.injEq, Except.ok.injEq] at h
          rw [ih.mpr ⟨ys, rest, h.2⟩]; rfl

theorem unwrapped_ok_iff {β : Type} (u : Bool) (xs : List (Except PyErr β)) (r : Result β) :
    unwrapped u xs = .ok r ↔ ∃ ys, xs = ys.map .ok ∧ r = wrap u ys := by
  unfold unwrapped
  have hw : ∀ ys : List β, unwrapValue u ys = wrap u ys := by
    intro ys; cases u <;> rcases ys with _ | ⟨y, _ | ⟨y', ys⟩⟩ <;> rfl
  cases hc : collect xs with
  | error e =>
    simp only [Except.bind, reduceCtorEq, false_iff, not_exists, not_and]
    intro ys hy
    rw [(collect_ok_iff xs ys).mpr hy] at hc; cases hc
  | ok ys =>
    have hx := (collect_ok_iff xs ys).mp hc
    simp only [Except.bind, hw, Except.ok.injEq]
    constructor
    · rintro rfl; exact ⟨ys, hx, rfl⟩
    · rintro ⟨ys', h', rfl⟩
      have : ys.map Except.ok = ys'.map (Except.ok (ε := PyErr)) := by rw [← hx, h']
      rw [List.map_injective_iff.mpr (fun a b h => by injection h) this]

theorem unwrapped_error_iff {β : Type} (u : Bool) (xs : List (Except PyErr β)) (e : PyErr) :
    unwrapped u xs = .error e ↔ ∃ (ys : List β) (rest : List (Except PyErr β)), xs = ys.map .ok ++ .error e :: rest := by
  rw [← collect_error_iff]
  unfold unwrapped
  cases hc : collect xs with
  | error e' => simp [Except.bind]
  | ok ys => simp [Except.bind]

theorem map_zip_iff {α β γ : Type} (f : α × β → Except PyErr γ) (as : List α) (bs : List β) (h : bs.length = as.length)
    (ys : List γ) : (as.zip bs).map f = ys.map .ok ↔
      ys.length = as.length ∧ ∀ (i : ℕ) a b y, as[i]? = some a → bs[i]? = some b → ys[i]? = some y → f (a, b) = .ok y := by
  constructor
  · intro hm
    have hl : ys.length = as.length := by
      have := congrArg List.length hm
      simp [h] at this; omega
    refine ⟨hl, fun i a b y ha hb hy => ?_⟩
    have := congrArg (fun l => l[i]?) hm
    simpa [List.getElem?_map, hy, List.zip, List.getElem?_zipWith, ha, hb] using this
  · rintro ⟨hl, hf⟩
    apply List.ext_getElem?
    intro i
    by_cases hi : i < as.length
    · have ha := List.getElem?_eq_getElem hi
      have hb := List.getElem?_eq_getElem (l := bs) (i := i) (by omega)
      have hy := List.getElem?_eq_getElem (l := ys) (i := i) (by omega)
      have := hf i _ _ _ ha hb hy
      simp only [List.getElem?_map, List.zip, List.getElem?_zipWith, ha, hb, hy, Option.map_some, this]
    · rw [List.getElem?_eq_none (by simp [h]; omega), List.getElem?_eq_none (by simp; omega)]

theorem map_iff {α γ : Type} (f : α → Except PyErr γ) (as : List α) (ys : List γ) : as.map f = ys.map .ok ↔
      ys.length = as.length ∧ ∀ (i : ℕ) a y, as[i]? = some a → ys[i]? = some y → f a = .ok y := by
  constructor
  · intro hm
    have hl : ys.length = as.length := by simpa using (congrArg List.length hm).symm
    refine ⟨hl, fun i a y ha hy => ?_⟩
    have := congrArg (fun l => l[i]?) hm
    simpa [ha, hy] using this
  · rintro ⟨hl, hf⟩
    apply List.ext_getElem?
    intro i
    by_cases hi : i < as.length
    · have ha := List.getElem?_eq_getElem hi
      have hy := List.getElem?_eq_getElem (l := ys) (i := i) (by omega)
      simp only [List.getElem?_map, ha, hy, Option.map_some, hf i _ _ ha hy]
    · rw [List.getElem?_eq_none (by simp; omega), List.getElem?_eq_none (by simp; omega)]

variable (sys : System) (u : Bool)

/-- **C85**: `get_irradiance` succeeds exactly when every array does with its own entries, and then the results are those, in the
order of the arrays. -/
theorem getIrradiance_iff (tb : Tables) (extra : Option Fl) (z az : Fl) {dni ghi dhi : PerArray Fl} {alb : PerArray (Option Fl)}
    {d g h : List Fl} {al : List (Option Fl)} (dx am : Option Fl) (model : String) (kw : IrrKwargs)
    (hd : Supplies sys.arrays.length True dni d) (hg : Supplies sys.arrays.length True ghi g)
    (hh : Supplies sys.arrays.length True dhi h) (ha : Supplies sys.arrays.length True alb al) (r : Result Irradiance.Poa) :
    sys.getIrradiance tb extra z az dni ghi dhi dx am alb model kw u = .ok r ↔
      ∃ ys, r = wrap u ys ∧ ys.length = sys.arrays.length ∧ ∀ (i : ℕ) a d' g' h' al' y,
        sys.arrays[i]? = some a → d[i]? = some d' → g[i]? = some g' → h[i]? = some h' → al[i]? = some al' →
        ys[i]? = some y → a.getIrradiance tb extra z az d' g' h' dx am al' model kw = .ok y := by
  have ld := supplies_length hd; have lg := supplies_length hg; have lh := supplies_length hh; have la := supplies_length ha
  simp only [System.getIrradiance, (validate_iff sys dni true d).mpr (by simpa using hd),
    (validate_iff sys ghi true g).mpr (by simpa using hg), (validate_iff sys dhi true h).mpr (by simpa using hh),
    (validate_iff sys alb true al).mpr (by simpa using ha), Except.bind]
  rw [unwrapped_ok_iff]
  refine exists_congr fun ys => ?_
  rw [map_zip_iff _ _ _ (by simp [ld, lg, lh, la])]
  simp only [Prod.forall, List.getElem?_zip_eq_some]
  constructor
  · rintro ⟨⟨hl, hf⟩, hr⟩
    exact ⟨hr, hl, fun i a d' g' h' al' y h1 h2 h3 h4 h5 h6 => hf i a d' g' h' al' y h1 ⟨h2, h3, h4, h5⟩ h6⟩
  · rintro ⟨hr, hl, hf⟩
    exact ⟨⟨hl, fun i a d' g' h' al' y h1 h2 h6 => hf i a d' g' h' al' y h1 h2.1 h2.2.1 h2.2.2.1 h2.2.2.2 h6⟩, hr⟩

example (tb : Tables) := getIrradiance_iff demoSys true tb none (fin 40) (fin 150) (dni := .one (fin 700)) (ghi := .tuple [fin 600, fin 650])
  (dhi := .one (fin 100)) (alb := .one none) (d := [fin 700, fin 700]) (g := [fin 600, fin 650]) (h := [fin 100, fin 100])
  (al := [none, none]) none none "isotropic" {} ⟨Or.inl trivial, rfl⟩ ⟨rfl, rfl⟩ ⟨Or.inl trivial, rfl⟩ ⟨Or.inl trivial, rfl⟩

/-- **C85**: `get_iam`, array by array. -/
theorem getIam_iff (mk : String → List Fl → List Fl → Except PyErr (Fl → Fl)) {aoi : PerArray Fl} {x : List Fl} (model : String)
    (hx : Supplies sys.arrays.length False aoi x) (r : Result Fl) :
    sys.getIam mk aoi model u = .ok r ↔
      ∃ ys, r = wrap u ys ∧ ys.length = sys.arrays.length ∧ ∀ (i : ℕ) a x' y,
        sys.arrays[i]? = some a → x[i]? = some x' → ys[i]? = some y → a.getIam mk x' model = .ok y := by
  simp only [System.getIam, (validate_iff sys aoi false x).mpr (by simpa using hx), Except.bind]
  rw [unwrapped_ok_iff]
  refine exists_congr fun ys => ?_
  rw [map_zip_iff _ _ _ (supplies_length hx)]
  tauto

example (mk : String → List Fl → List Fl → Except PyErr (Fl → Fl)) := getIam_iff demoSys true mk (aoi := .tuple [fin 20, fin 50])
  (x := [fin 20, fin 50]) "physical" ⟨rfl, rfl⟩

/-- **C85**: `get_cell_temperature`, array by array; the irradiance must be given per array, the weather may be shared. -/
theorem getCellTemperature_iff (sigma : Fl) (hours : ℕ → ℝ) {poa ta ws : PerArray (ℕ → Fl)} {ei lw : PerArray (Option (ℕ → Fl))}
    {p t w : List (ℕ → Fl)} {e l : List (Option (ℕ → Fl))} (model : String)
    (hp : Supplies sys.arrays.length False poa p) (ht : Supplies sys.arrays.length True ta t)
    (hw : Supplies sys.arrays.length True ws w) (he : Supplies sys.arrays.length True ei e)
    (hl : Supplies sys.arrays.length True lw l) (r : Result (ℕ → Fl)) :
    sys.getCellTemperature sigma hours poa ta ws model ei lw u = .ok r ↔
      ∃ ys, r = wrap u ys ∧ ys.length = sys.arrays.length ∧ ∀ (i : ℕ) a p' t' w' e' l' y,
        sys.arrays[i]? = some a → p[i]? = some p' → t[i]? = some t' → w[i]? = some w' → e[i]? = some e' → l[i]? = some l' →
        ys[i]? = some y → a.getCellTemperature sigma ⟨p', t', w', e', l', hours⟩ model = .ok y := by
  have lp := supplies_length hp; have lt := supplies_length ht; have lw' := supplies_length hw
  have le := supplies_length he; have ll := supplies_length hl
  simp only [System.getCellTemperature, (validate_iff sys poa false p).mpr (by simpa using hp),
    (validate_iff sys ta true t).mpr (by simpa using ht), (validate_iff sys ws true w).mpr (by simpa using hw),
    (validate_iff sys ei true e).mpr (by simpa using he), (validate_iff sys lw true l).mpr (by simpa using hl), Except.bind]
  rw [unwrapped_ok_iff]
  refine exists_congr fun ys => ?_
  rw [map_zip_iff _ _ _ (by simp [lp, lt, lw', le, ll])]
  simp only [Prod.forall, List.getElem?_zip_eq_some]
  constructor
  · rintro ⟨⟨hl, hf⟩, hr⟩
    exact ⟨hr, hl, fun i a p' t' w' e' l' y h1 h2 h3 h4 h5 h6 h7 => hf i a p' t' w' e' l' y h1 ⟨h2, h3, h4, h5, h6⟩ h7⟩
  · rintro ⟨hr, hl, hf⟩
    exact ⟨⟨hl, fun i a p' t' w' e' l' y h1 h2 h7 =>
      hf i a p' t' w' e' l' y h1 h2.1 h2.2.1 h2.2.2.1 h2.2.2.2.1 h2.2.2.2.2 h7⟩, hr⟩

example (sigma : Fl) := getCellTemperature_iff demoSys true sigma (fun i => i) (poa := .tuple [fun _ => fin 700, fun _ => fin 500])
  (ta := .one fun _ => fin 20) (ws := .one fun _ => fin 1) (ei := .one none) (lw := .one none)
  (p := [fun _ => fin 700, fun _ => fin 500]) (t := [fun _ => fin 20, fun _ => fin 20]) (w := [fun _ => fin 1, fun _ => fin 1])
  (e := [none, none]) (l := [none, none]) "faiman" ⟨rfl, rfl⟩ ⟨Or.inl trivial, rfl⟩ ⟨Or.inl trivial, rfl⟩ ⟨Or.inl trivial, rfl⟩
  ⟨Or.inl trivial, rfl⟩

private theorem perTwo_iff {β : Type} (f : PvArr → Fl → Fl → Except PyErr β) {ei tc : PerArray Fl} {e t : List Fl}
    (he : Supplies sys.arrays.length False ei e) (ht : Supplies sys.arrays.length False tc t) (r : Result β) :
    sys.perTwo f ei tc u = .ok r ↔
      ∃ ys, r = wrap u ys ∧ ys.length = sys.arrays.length ∧ ∀ (i : ℕ) a e' t' y,
        sys.arrays[i]? = some a → e[i]? = some e' → t[i]? = some t' → ys[i]? = some y → f a e' t' = .ok y := by
  have le := supplies_length he; have lt := supplies_length ht
  simp only [System.perTwo, (validate_iff sys ei false e).mpr (by simpa using he),
    (validate_iff sys tc false t).mpr (by simpa using ht), Except.bind]
  rw [unwrapped_ok_iff]
  refine exists_congr fun ys => ?_
  rw [map_zip_iff _ _ _ (by simp [le, lt])]
  simp only [Prod.forall, List.getElem?_zip_eq_some]
  constructor
  · rintro ⟨⟨hl, hf⟩, hr⟩
    exact ⟨hr, hl, fun i a e' t' y h1 h2 h3 h4 => hf i a e' t' y h1 ⟨h2, h3⟩ h4⟩
  · rintro ⟨hr, hl, hf⟩
    exact ⟨⟨hl, fun i a e' t' y h1 h2 h4 => hf i a e' t' y h1 h2.1 h2.2 h4⟩, hr⟩

section two
variable {ei tc : PerArray Fl} {e t : List Fl}
  (he : Supplies sys.arrays.length False ei e) (ht : Supplies sys.arrays.length False tc t)
include he ht

/-- **C85**: `calcparams_desoto`, array by array: the five parameters of each array's own module at its own irradiance and
temperature. -/
theorem desoto_iff (r : Result Five) : sys.calcparamsDesoto ei tc u = .ok r ↔
      ∃ ys, r = wrap u ys ∧ ys.length = sys.arrays.length ∧ ∀ (i : ℕ) a e' t' y,
        sys.arrays[i]? = some a → e[i]? = some e' → t[i]? = some t' → ys[i]? = some y → desotoOf a e' t' = .ok y :=
  perTwo_iff sys u desotoOf he ht r

example (r : Result Five) := desoto_iff demoSys true (ei := .tuple [fin 800, fin 700]) (tc := .tuple [fin 40, fin 38])
  (e := [fin 800, fin 700]) (t := [fin 40, fin 38]) ⟨rfl, rfl⟩ ⟨rfl, rfl⟩ r

theorem cec_iff (r : Result Five) : sys.calcparamsCec ei tc u = .ok r ↔
      ∃ ys, r = wrap u ys ∧ ys.length = sys.arrays.length ∧ ∀ (i : ℕ) a e' t' y,
        sys.arrays[i]? = some a → e[i]? = some e' → t[i]? = some t' → ys[i]? = some y → cecOf a e' t' = .ok y :=
  perTwo_iff sys u cecOf he ht r

example (r : Result Five) := cec_iff demoSys true (ei := .tuple [fin 800, fin 700]) (tc := .tuple [fin 40, fin 38])
  (e := [fin 800, fin 700]) (t := [fin 40, fin 38]) ⟨rfl, rfl⟩ ⟨rfl, rfl⟩ r

theorem pvsyst_iff (r : Result Five) : sys.calcparamsPvsyst ei tc u = .ok r ↔
      ∃ ys, r = wrap u ys ∧ ys.length = sys.arrays.length ∧ ∀ (i : ℕ) a e' t' y,
        sys.arrays[i]? = some a → e[i]? = some e' → t[i]? = some t' → ys[i]? = some y → pvsystOf a e' t' = .ok y :=
  perTwo_iff sys u pvsystOf he ht r

example (r : Result Five) := pvsyst_iff demoSys true (ei := .tuple [fin 800, fin 700]) (tc := .tuple [fin 40, fin 38])
  (e := [fin 800, fin 700]) (t := [fin 40, fin 38]) ⟨rfl, rfl⟩ ⟨rfl, rfl⟩ r

theorem sapm_iff (r : Result SapmOut) : sys.sapm ei tc u = .ok r ↔
      ∃ ys, r = wrap u ys ∧ ys.length = sys.arrays.length ∧ ∀ (i : ℕ) a e' t' y,
        sys.arrays[i]? = some a → e[i]? = some e' → t[i]? = some t' → ys[i]? = some y → sapmOf a e' t' = .ok y :=
  perTwo_iff sys u sapmOf he ht r

example (r : Result SapmOut) := sapm_iff demoSys true (ei := .tuple [fin 800, fin 700]) (tc := .tuple [fin 40, fin 38])
  (e := [fin 800, fin 700]) (t := [fin 40, fin 38]) ⟨rfl, rfl⟩ ⟨rfl, rfl⟩ r

theorem pvwattsDc_iff (r : Result Fl) : sys.pvwattsDc ei tc u = .ok r ↔
      ∃ ys, r = wrap u ys ∧ ys.length = sys.arrays.length ∧ ∀ (i : ℕ) a e' t' y,
        sys.arrays[i]? = some a → e[i]? = some e' → t[i]? = some t' → ys[i]? = some y → pvwattsDcOf a e' t' = .ok y :=
  perTwo_iff sys u pvwattsDcOf he ht r

example (r : Result Fl) := pvwattsDc_iff demoSys true (ei := .tuple [fin 800, fin 700]) (tc := .tuple [fin 40, fin 38])
  (e := [fin 800, fin 700]) (t := [fin 40, fin 38]) ⟨rfl, rfl⟩ ⟨rfl, rfl⟩ r

end two

/-- **C85**: `sapm_effective_irradiance`, array by array; the air mass is shared. -/
theorem sapmEff_iff {pd pf aoi : PerArray Fl} {d f x : List Fl} (am : Fl) (hd : Supplies sys.arrays.length False pd d)
    (hf : Supplies sys.arrays.length False pf f) (hx : Supplies sys.arrays.length False aoi x) (r : Result Fl) :
    sys.sapmEffectiveIrradiance pd pf am aoi u = .ok r ↔
      ∃ ys, r = wrap u ys ∧ ys.length = sys.arrays.length ∧ ∀ (i : ℕ) a d' f' x' y,
        sys.arrays[i]? = some a → d[i]? = some d' → f[i]? = some f' → x[i]? = some x' → ys[i]? = some y →
        sapmEffOf a am d' f' x' = .ok y := by
  have l1 := supplies_length hd; have l2 := supplies_length hf; have l3 := supplies_length hx
  simp only [System.sapmEffectiveIrradiance, (validate_iff sys pd false d).mpr (by simpa using hd),
    (validate_iff sys pf false f).mpr (by simpa using hf), (validate_iff sys aoi false x).mpr (by simpa using hx), Except.bind]
  rw [unwrapped_ok_iff]
  refine exists_congr fun ys => ?_
  rw [map_zip_iff _ _ _ (by simp [l1, l2, l3])]
  simp only [Prod.forall, List.getElem?_zip_eq_some]
  constructor
  · rintro ⟨⟨hl, hf⟩, hr⟩
    exact ⟨hr, hl, fun i a d' f' x' y h1 h2 h3 h4 h5 => hf i a d' f' x' y h1 ⟨h2, h3, h4⟩ h5⟩
  · rintro ⟨hr, hl, hf⟩
    exact ⟨⟨hl, fun i a d' f' x' y h1 h2 h5 => hf i a d' f' x' y h1 h2.1 h2.2.1 h2.2.2 h5⟩, hr⟩

example := sapmEff_iff demoSys true (pd := .tuple [fin 600, fin 500]) (pf := .tuple [fin 90, fin 95]) (aoi := .tuple [fin 20, fin 50])
  (d := [fin 600, fin 500]) (f := [fin 90, fin 95]) (x := [fin 20, fin 50]) (fin 1.5) ⟨rfl, rfl⟩ ⟨rfl, rfl⟩ ⟨rfl, rfl⟩

/-- **C85**: `first_solar_spectral_loss`, array by array; precipitable water may be shared. -/
theorem firstSolar_iff {pw : PerArray Fl} {x : List Fl} (am : Fl) (hx : Supplies sys.arrays.length True pw x) (r : Result Fl) :
    sys.firstSolarSpectralLoss pw am u = .ok r ↔
      ∃ ys, r = wrap u ys ∧ ys.length = sys.arrays.length ∧ ∀ (i : ℕ) a x' y,
        sys.arrays[i]? = some a → x[i]? = some x' → ys[i]? = some y → firstSolarOf a am x' = .ok y := by
  simp only [System.firstSolarSpectralLoss, (validate_iff sys pw true x).mpr (by simpa using hx), Except.bind]
  rw [unwrapped_ok_iff]
  refine exists_congr fun ys => ?_
  rw [map_zip_iff _ _ _ (supplies_length hx)]
  tauto

example := firstSolar_iff demoSys true (pw := .one (fin 1.4)) (x := [fin 1.4, fin 1.4]) (fin 1.5) ⟨Or.inl trivial, rfl⟩

/-- **C85**: `scale_voltage_current_power`: each array's data is scaled by its own modules per string and number of strings. -/
theorem scale_iff {data : PerArray Frame} {x : List Frame} (hx : Supplies sys.arrays.length False data x) (r : Result Frame) :
    sys.scale data u = .ok r ↔
      ∃ ys, r = wrap u ys ∧ ys.length = sys.arrays.length ∧ ∀ (i : ℕ) a x' y,
        sys.arrays[i]? = some a → x[i]? = some x' → ys[i]? = some y →
        scaleVoltageCurrentPower x' a.modules_per_string a.strings = .ok y := by
  simp only [System.scale, (validate_iff sys data false x).mpr (by simpa using hx), Except.bind]
  rw [unwrapped_ok_iff]
  refine exists_congr fun ys => ?_
  rw [map_zip_iff _ _ _ (supplies_length hx)]
  tauto

example := scale_iff demoSys true (data := .tuple [[("v_mp", [fin 30])], [("v_mp", [fin 31])]])
  (x := [[("v_mp", [fin 30])], [("v_mp", [fin 31])]]) ⟨rfl, rfl⟩

/-- **C85**: the methods that need no per-array values. -/
theorem getAoi_eq (z az : Fl) : sys.getAoi z az u = .ok (wrap u (sys.arrays.map fun a => a.getAoi z az)) := by
  rw [System.getAoi, unwrapped_ok_iff]
  exact ⟨_, by simp, rfl⟩

theorem sapmSpectral_iff (am : Fl) (r : Result Fl) : sys.sapmSpectralLoss am u = .ok r ↔
      ∃ ys, r = wrap u ys ∧ ys.length = sys.arrays.length ∧ ∀ (i : ℕ) a y,
        sys.arrays[i]? = some a → ys[i]? = some y → sapmSpectralOf a am = .ok y := by
  rw [System.sapmSpectralLoss, unwrapped_ok_iff]
  refine exists_congr fun ys => ?_
  rw [map_iff]; tauto

theorem dcOhms_iff (r : Result Fl) : sys.dcOhms u = .ok r ↔
      ∃ ys, r = wrap u ys ∧ ys.length = sys.arrays.length ∧ ∀ (i : ℕ) a y,
        sys.arrays[i]? = some a → ys[i]? = some y → a.dcOhms = .ok y := by
  rw [System.dcOhms, unwrapped_ok_iff]
  refine exists_congr fun ys => ?_
  rw [map_iff]; tauto

theorem inferCellType_iff (r : Result (Option String)) : sys.inferCellType u = .ok r ↔
      ∃ ys, r = wrap u ys ∧ ys.length = sys.arrays.length ∧ ∀ (i : ℕ) a y,
        sys.arrays[i]? = some a → ys[i]? = some y → Pvlib.PvSystem.inferCellType a.module_parameters = .ok y := by
  rw [System.inferCellType, unwrapped_ok_iff]
  refine exists_congr fun ys => ?_
  rw [map_iff]; tauto

/-- **C85**: a wrong number of values is refused with a ValueError: here for the irradiances of `get_irradiance` ... -/
theorem getIrradiance_mismatch (tb : Tables) (extra : Option Fl) (z az : Fl) (d : List Fl) (ghi dhi : PerArray Fl)
    (alb : PerArray (Option Fl)) (dx am : Option Fl) (model : String) (kw : IrrKwargs) (h : d.length ≠ sys.arrays.length) :
    sys.getIrradiance tb extra z az (.tuple d) ghi dhi dx am alb model kw u = .error .valueError := by
  have := validate_error sys (.tuple d) true (by simp [Supplies, h])
  simp only [System.getIrradiance, this, Except.bind]

example (tb : Tables) := getIrradiance_mismatch demoSys true tb none (fin 40) (fin 150) [fin 700] (.one (fin 600)) (.one (fin 100))
  (.one none) none none "isotropic" {} (by simp [demoSys])

/-- ... and for the irradiance of `get_cell_temperature`, where one bare value for several arrays is refused as well. -/
theorem getCellTemperature_mismatch (sigma : Fl) (hours : ℕ → ℝ) (poa ta ws : PerArray (ℕ → Fl)) (ei lw : PerArray (Option (ℕ → Fl)))
    (model : String) (h : ¬ ∃ xs, Supplies sys.arrays.length False poa xs) :
    sys.getCellTemperature sigma hours poa ta ws model ei lw u = .error .valueError := by
  have := validate_error sys poa false (by simpa using h)
  simp only [System.getCellTemperature, this, Except.bind]

example (sigma : Fl) := getCellTemperature_mismatch demoSys true sigma (fun i => i) (.one fun _ => fin 700) (.one fun _ => fin 20)
  (.one fun _ => fin 1) (.one none) (.one none) "faiman" (by rintro ⟨xs, h, -⟩; simp [demoSys] at h)

theorem perTwo_mismatch {β : Type} (f : PvArr → Fl → Fl → Except PyErr β) (ei tc : PerArray Fl)
    (h : ¬ (∃ xs, Supplies sys.arrays.length False ei xs) ∨ ¬ ∃ xs, Supplies sys.arrays.length False tc xs) :
    sys.perTwo f ei tc u = .error .valueError := by
  rcases h with h | h
  · have := validate_error sys ei false (by simpa using h)
    simp only [System.perTwo, this, Except.bind]
  · have := validate_error sys tc false (by simpa using h)
    cases hv : validatePerArray sys ei false with
    | error e =>
      have h2 : ¬ ∃ xs, Supplies sys.arrays.length (false = true) ei xs := by
        rintro ⟨xs, hx⟩; rw [(validate_iff sys ei false xs).mpr hx] at hv; cases hv
      rw [validate_error sys ei false h2] at hv
      simp only [System.perTwo, validate_error sys ei false h2, Except.bind]
    | ok xs => simp only [System.perTwo, hv, this, Except.bind]

/-- **C85**: an error is that of the first array that fails (here for the DC power of PVWatts): the arrays before it computed. -/
theorem pvwattsDc_first_error {ei tc : PerArray Fl} {e t : List Fl} (he : Supplies sys.arrays.length False ei e)
    (ht : Supplies sys.arrays.length False tc t) (err : PyErr) (h : sys.pvwattsDc ei tc u = .error err) :
    ∃ i : ℕ, (∃ a e' t', sys.arrays[i]? = some a ∧ e[i]? = some e' ∧ t[i]? = some t' ∧ pvwattsDcOf a e' t' = .error err) ∧
      ∀ j < i, ∃ a e' t' y, sys.arrays[j]? = some a ∧ e[j]? = some e' ∧ t[j]? = some t' ∧ pvwattsDcOf a e' t' = .ok y := by
  have le := supplies_length he; have lt := supplies_length ht
  simp only [System.pvwattsDc, System.perTwo, (validate_iff sys ei false e).mpr (by simpa using he),
    (validate_iff sys tc false t).mpr (by simpa using ht), Except.bind] at h
  obtain ⟨ys, rest, hx⟩ := (unwrapped_error_iff _ _ _).mp h
  have key : ∀ (j : ℕ) z, (ys.map Except.ok ++ Except.error err :: rest)[j]? = some z →
      ∃ a e' t', sys.arrays[j]? = some a ∧ e[j]? = some e' ∧ t[j]? = some t' ∧ pvwattsDcOf a e' t' = z := by
    intro j z hj
    rw [← hx, List.getElem?_map, Option.map_eq_some_iff] at hj
    obtain ⟨⟨a, e', t'⟩, h1, h2⟩ := hj
    rw [List.getElem?_zip_eq_some, List.getElem?_zip_eq_some] at h1
    exact ⟨a, e', t', h1.1, h1.2.1, h1.2.2, h2⟩
  refine ⟨ys.length, key _ _ (by simp), fun j hj => ?_⟩
  obtain ⟨a, e', t', h1, h2, h3, h4⟩ := key j (.ok (ys[j])) (by simp [List.getElem?_append, hj])
  exact ⟨a, e', t', _, h1, h2, h3, h4⟩

example := pvwattsDc_first_error demoSys true (ei := .tuple [fin 800, fin 700]) (tc := .tuple [fin 40, fin 38])
  (e := [fin 800, fin 700]) (t := [fin 40, fin 38]) ⟨rfl, rfl⟩ ⟨rfl, rfl⟩ (.keyError "pdc0")
  (by simp [System.pvwattsDc, System.perTwo, validatePerArray, demoSys, mkArray, Except.bind, unwrapped, pvwattsDcOf, getNums, getNum,
    argOf, PyDict.get?, collect])

/-- **C85**: with one array the system's method is the array's, given bare values. -/
theorem single_irradiance (a : PvArr) (inv loss : PyDict PVal) (tb : Tables) (extra : Option Fl) (z az d g h : Fl)
    (dx am al : Option Fl) (model : String) (kw : IrrKwargs) :
    (System.mk [a] inv loss).getIrradiance tb extra z az (.one d) (.one g) (.one h) dx am (.one al) model kw =
      (a.getIrradiance tb extra z az d g h dx am al model kw).map .single := by
  simp only [System.getIrradiance, validatePerArray, List.length_singleton, List.replicate, if_true, Except.bind, List.zip_cons_cons,
    List.zip_nil_right, List.map_cons, List.map_nil, unwrapped]
  cases a.getIrradiance tb extra z az d g h dx am al model kw <;> simp [collect, Except.bind, Except.map, unwrapValue]

/-- **C85**: results do not mix: changing another array and its values leaves result `i` as it was. -/
theorem pvwattsDc_independent (sys' : System) {e t e' t' : List Fl} {ys ys' : List Fl} (i : ℕ)
    (hl : sys'.arrays.length = sys.arrays.length)
    (hs : sys'.arrays[i]? = sys.arrays[i]?) (he : e'[i]? = e[i]?) (ht : t'[i]? = t[i]?)
    (h : sys.pvwattsDc (.tuple e) (.tuple t) false = .ok (.tuple ys))
    (h' : sys'.pvwattsDc (.tuple e') (.tuple t') false = .ok (.tuple ys')) : ys'[i]? = ys[i]? := by
  have sup : ∀ (s : System) (e t : List Fl) r, s.pvwattsDc (.tuple e) (.tuple t) false = .ok r →
      e.length = s.arrays.length ∧ t.length = s.arrays.length := by
    intro s e t r h
    by_contra hc
    have := perTwo_mismatch s false pvwattsDcOf (.tuple e) (.tuple t) (by simp only [Supplies]; simp; tauto)
    rw [System.pvwattsDc, this] at h; cases h
  obtain ⟨le, lt⟩ := sup _ _ _ _ h
  obtain ⟨le', lt'⟩ := sup _ _ _ _ h'
  obtain ⟨zs, hz, hzl, hzf⟩ := (pvwattsDc_iff sys false (ei := .tuple e) (tc := .tuple t) ⟨le, rfl⟩ ⟨lt, rfl⟩ _).mp h
  obtain ⟨zs', hz', hzl', hzf'⟩ := (pvwattsDc_iff sys' false (ei := .tuple e') (tc := .tuple t') ⟨le', rfl⟩ ⟨lt', rfl⟩ _).mp h'
  simp only [wrap, Result.tuple.injEq] at hz hz'
  subst hz hz'
  by_cases hi : i < sys.arrays.length
  · have g := fun {α : Type} (l : List α) (h : i < l.length) => List.getElem?_eq_getElem h
    have h1 := hzf i _ _ _ _ (g _ hi) (g e (by omega)) (g t (by omega)) (g ys (by omega))
    have h2 := hzf' i _ _ _ _ (hs.trans (g _ hi)) (he.trans (g e (by omega))) (ht.trans (g t (by omega))) (g ys' (by omega))
    rw [h1] at h2
    rw [g ys' (by omega), g ys (by omega)]
    simpa using h2.symm
  · rw [List.getElem?_eq_none (by omega), List.getElem?_eq_none (by omega)]

/-! ### Concrete cases -/

private def pw (p g : ℝ) : PvArr :=
  mkArray (.fixed 30 180 none none) (module_parameters := some [("pdc0", .num (fin p)), ("gamma_pdc", .num (fin g))])

/-- Two arrays of different size under the same sky give two different powers, in order. -/
example : (System.mk [pw 100 0, pw 200 0] [] []).pvwattsDc (.tuple [fin 1000, fin 500]) (.tuple [fin 25, fin 25]) =
    .ok (.tuple [fin 100, fin 100]) := by
  simp only [System.pvwattsDc, System.perTwo, validatePerArray, pw, mkArray, List.length_cons, List.length_nil, ne_eq, not_true,
    if_false, Except.bind, unwrapped, List.zip_cons_cons, List.zip_nil_right, List.map_cons, List.map_nil, pvwattsDcOf, getNums,
    getNum, argOf, PyDict.get?, Option.getD_some, if_true, PVal.toNum, numKwargs, buildKwargs, List.foldl, kwargsStep, numsOf,
    kwOr, Option.getD_none, pvwattsDc]
  simp [collect, Except.bind, unwrapValue, numsOf, PyDict.get?]
  norm_num

/-- A single bare irradiance for two arrays is refused. -/
example : (System.mk [pw 100 0, pw 200 0] [] []).pvwattsDc (.one (fin 1000)) (.tuple [fin 25, fin 25]) = .error .valueError :=
  perTwo_mismatch _ _ _ _ _ (Or.inl (by simp [Supplies]))

example : Supplies 2 True (.one (fin 7)) [fin 7, fin 7] := by simp [Supplies, List.replicate]
example : ¬ ∃ xs, Supplies 2 False (.one (fin 7)) xs := by simp [Supplies]

end Pvlib.Props.PvSystem
