import Verif.Model.Pvfactors

/-! # Property C220: what `pvfactors_timeseries` asks for and reports -/

noncomputable section
namespace Pvlib.Props.Pvfactors
open Pvlib.Pvfactors Fl

/-! ### Specification -/

/-- The orientation at each of `n` times. -/
def Means (n : ℕ) (a : Angle) (l : List Fl) : Prop := l.length = n ∧ match a with
  | .scalar x => ∀ y ∈ l, y = x
  | .many given => given = l

/-- The series that a result is: at each time the number of the engine. -/
def Series' {T : Type} (times : List T) (values : List Fl) (out : List (T × Fl)) : Prop :=
  out.map Prod.fst = times ∧ out.map Prod.snd = values

/-- The request to the engine. -/
def asked {T : Type} (times : List T) (saz dni dhi zen tilt az : Arr) (axis gcr height width albedo rf rb band : Fl) (n : ℕ) : Call T where
  params := { n_pvrows := n, axis_azimuth := axis, pvrow_height := height, pvrow_width := width, gcr := gcr, rho_front := rf, rho_back := rb,
              horizon_band_angle := band }
  timestamps := times
  dni := dni
  dhi := dhi
  solar_zenith := zen
  solar_azimuth := saz
  surface_tilt := tilt
  surface_azimuth := az
  albedo := albedo

/-! ### Proofs -/

private theorem full_float {n : ℕ} {zen : List Fl} (hz : zen.length = n) {a : Angle} {l : List Fl} (h : Means n a l) : fullLike (.floats zen) a = .ok (.floats l) := by
  obtain ⟨hl, h⟩ := h
  subst hz
  cases a with
  | scalar x =>
    have : l = List.replicate zen.length x := List.eq_replicate_iff.2 ⟨hl, h⟩
    rw [this]
    rfl
  | many g =>
    dsimp only at h
    subst h
    unfold fullLike
    dsimp only
    rw [if_pos (show g.length = (Arr.floats zen).length from hl)]

private theorem full_int {n : ℕ} {zen : List ℤ} (hz : zen.length = n) {a : Angle} {l : List Fl} (h : Means n a l) : fullLike (.ints zen) a = .ok (.ints (l.map trunc)) := by
  obtain ⟨hl, h⟩ := h
  subst hz
  cases a with
  | scalar x =>
    have : l = List.replicate zen.length x := List.eq_replicate_iff.2 ⟨hl, h⟩
    rw [this]
    rfl
  | many g =>
    dsimp only at h
    subst h
    unfold fullLike
    dsimp only
    rw [if_pos (show g.length = (Arr.ints zen).length from hl)]

private theorem series_zip {T : Type} {times : List T} {values : List Fl} (h : values.length = times.length) : Series' times values (times.zip values) :=
  ⟨List.map_fst_zip (le_of_eq h.symm), List.map_snd_zip (le_of_eq h)⟩

private theorem get_nat {α : Type} (l : List α) (i : ℕ) : pyGet l (i : ℤ) = l[i]? := by simp [pyGet]

variable {T : Type}

/-- **C220** (call and report): with solar zeniths that are not integers, the engine gets the arguments of the caller, one orientation repeated at all times; the results are
incident light on front and back and absorbed light on front and back of the observed row, at the times given. -/
theorem report (engine : Call T → Except PyErr (List PvRow)) (saz dni dhi : Arr) (zen : List Fl) (times : List T) {az tilt : Angle} {azs tilts : List Fl}
    (haz : Means zen.length az azs) (htilt : Means zen.length tilt tilts) (axis gcr height width albedo rf rb band : Fl) (n i : ℕ) {rows : List PvRow} {row : PvRow}
    (he : engine (asked times saz dni dhi (.floats zen) (.floats tilts) (.floats azs) axis gcr height width albedo rf rb band n) = .ok rows) (hi : rows[i]? = some row)
    (hl : row.front.qinc.length = times.length ∧ row.front.qabs.length = times.length ∧ row.back.qinc.length = times.length ∧ row.back.qabs.length = times.length) :
    ∃ r, timeseries engine saz (.floats zen) az tilt axis times dni dhi gcr height width albedo n i rf rb band = .ok r ∧
      Series' times row.front.qinc r.inc_front ∧ Series' times row.back.qinc r.inc_back ∧ Series' times row.front.qabs r.abs_front ∧
      Series' times row.back.qabs r.abs_back := by
  refine ⟨⟨times.zip row.front.qinc, times.zip row.back.qinc, times.zip row.front.qabs, times.zip row.back.qabs⟩, ?_, series_zip hl.1, series_zip hl.2.2.1, series_zip hl.2.1, series_zip hl.2.2.2⟩
  unfold timeseries
  rw [full_float rfl htilt, full_float rfl haz]
  dsimp only
  unfold asked at he
  rw [he]
  dsimp only
  rw [get_nat, hi]
  dsimp only
  rw [if_pos hl]

/-- **C220** (rows counted from the end): a negative number of the observed row counts from the end: -1 is the last row, -2 the one before, and so on; one beyond the first row is an
IndexError. -/
theorem from_end (engine : Call T → Except PyErr (List PvRow)) (saz dni dhi : Arr) (zen : List Fl) (times : List T) {az tilt : Angle} {azs tilts : List Fl}
    (haz : Means zen.length az azs) (htilt : Means zen.length tilt tilts) (axis gcr height width albedo rf rb band : Fl) (n j : ℕ) {rows : List PvRow}
    (he : engine (asked times saz dni dhi (.floats zen) (.floats tilts) (.floats azs) axis gcr height width albedo rf rb band n) = .ok rows) :
    timeseries engine saz (.floats zen) az tilt axis times dni dhi gcr height width albedo n (-((j : ℤ) + 1)) rf rb band =
      if j < rows.length then timeseries engine saz (.floats zen) az tilt axis times dni dhi gcr height width albedo n ((rows.length - 1 - j : ℕ) : ℤ) rf rb band
      else .error .indexError := by
  unfold timeseries
  rw [full_float rfl htilt, full_float rfl haz]
  dsimp only
  unfold asked at he
  rw [he]
  dsimp only
  rw [get_nat]
  unfold pyGet
  rw [if_neg (by omega)]
  by_cases hj : j < rows.length
  · rw [if_pos hj, if_pos (by omega), show ((rows.length : ℤ) + -((j : ℤ) + 1)).toNat = rows.length - 1 - j by omega]
  · rw [if_neg hj, if_neg (by omega)]

/-- **C220** (integers): if the solar zeniths are integers, the engine gets the orientation without its fraction of a degree, and the same result is reported for orientations
that differ only in it. -/
theorem cut_off (engine : Call T → Except PyErr (List PvRow)) (saz dni dhi : Arr) (zen : List ℤ) (times : List T) {az az' tilt tilt' : Angle} {a a' t t' : List ℝ}
    (h1 : Means zen.length az (a.map fin)) (h2 : Means zen.length az' (a'.map fin)) (h3 : Means zen.length tilt (t.map fin)) (h4 : Means zen.length tilt' (t'.map fin))
    (pa : ∀ x ∈ a, 0 ≤ x) (pa' : ∀ x ∈ a', 0 ≤ x) (pt : ∀ x ∈ t, 0 ≤ x) (pt' : ∀ x ∈ t', 0 ≤ x)
    (ha : a.map Int.floor = a'.map Int.floor) (ht : t.map Int.floor = t'.map Int.floor) (axis gcr height width albedo rf rb band : Fl) (n : ℕ) (i : ℤ) :
    timeseries engine saz (.ints zen) az tilt axis times dni dhi gcr height width albedo n i rf rb band =
      timeseries engine saz (.ints zen) az' tilt' axis times dni dhi gcr height width albedo n i rf rb band := by
  have key : ∀ l : List ℝ, (∀ x ∈ l, 0 ≤ x) → (l.map fin).map trunc = l.map Int.floor := by
    intro l h
    rw [List.map_map]
    exact List.map_congr_left fun x hx => if_pos (h x hx)
  unfold timeseries
  rw [full_int rfl h1, full_int rfl h2, full_int rfl h3, full_int rfl h4, key _ pa, key _ pa', key _ pt, key _ pt', ha, ht]

/-- A sequence of orientations of a wrong length is an error. -/
theorem wrong_length (engine : Call T → Except PyErr (List PvRow)) (saz dni dhi zen : Arr) (times : List T) (az : Angle) {tilts : List Fl}
    (h : tilts.length ≠ zen.length) (h1 : tilts.length ≠ 1) (axis gcr height width albedo rf rb band : Fl) (n : ℕ) (i : ℤ) :
    timeseries engine saz zen az (.many tilts) axis times dni dhi gcr height width albedo n i rf rb band = .error .valueError := by
  unfold timeseries fullLike
  dsimp only
  rw [if_neg h]
  match tilts, h1 with
  | [], _ => rfl
  | _ :: _ :: _, _ => rfl

/-! ### Witnesses -/

/-- An engine that simulates two times of three rows. -/
def demoRows : List PvRow := [⟨⟨[1, 2], [3, 4]⟩, ⟨[5, 6], [7, 8]⟩⟩, ⟨⟨[10, 20], [30, 40]⟩, ⟨[50, 60], [70, 80]⟩⟩, ⟨⟨[1, 2], [3, 4]⟩, ⟨[5, 6], [7, 8]⟩⟩]

example := report (fun _ => .ok demoRows) (.floats [90, 100]) (.floats [800, 900]) (.floats [100, 90]) [20.5, 30] ["9:00", "10:00"] (az := .scalar 180) (azs := [180, 180])
  (tilt := .many [20.5, 21]) (tilts := [20.5, 21]) ⟨rfl, by simp⟩ ⟨rfl, rfl⟩ 0 0.4 1.5 2 0.2 0.03 0.05 15 3 1 (rows := demoRows) (row := ⟨⟨[10, 20], [30, 40]⟩, ⟨[50, 60], [70, 80]⟩⟩)
  rfl rfl ⟨rfl, rfl, rfl, rfl⟩

example := from_end (fun _ => .ok demoRows) (.floats [90, 100]) (.floats [800, 900]) (.floats [100, 90]) [20.5, 30] ["9:00", "10:00"] (az := .scalar 180) (azs := [180, 180])
  (tilt := .many [20.5, 21]) (tilts := [20.5, 21]) ⟨rfl, by simp⟩ ⟨rfl, rfl⟩ 0 0.4 1.5 2 0.2 0.03 0.05 15 3 1 (rows := demoRows) rfl

example := cut_off (fun _ => .ok demoRows) (.floats [90, 100]) (.floats [800, 900]) (.floats [100, 90]) [20, 30] ["9:00", "10:00"] (az := .scalar (fin 180)) (az' := .scalar (fin 180))
  (a := [180, 180]) (a' := [180, 180]) (tilt := .scalar (fin 20)) (tilt' := .many [fin 20.9, fin 20.5]) (t := [20, 20]) (t' := [20.9, 20.5]) ⟨rfl, by simp⟩ ⟨rfl, by simp⟩
  ⟨rfl, by simp⟩ ⟨rfl, rfl⟩ (by simp) (by simp) (by simp) (by norm_num) rfl
  (by simp only [List.map]; rw [show ⌊(20.9 : ℝ)⌋ = 20 by rw [Int.floor_eq_iff]; norm_num, show ⌊(20.5 : ℝ)⌋ = 20 by rw [Int.floor_eq_iff]; norm_num,
    show ⌊(20 : ℝ)⌋ = 20 by rw [Int.floor_eq_iff]; norm_num]) 0 0.4 1.5 2 0.2 0.03 0.05 15 3 1

example := wrong_length (fun _ => .ok demoRows) (.floats [90, 100]) (.floats [800, 900]) (.floats [100, 90]) (.floats [20, 30]) ["9:00", "10:00"] (.scalar 180) (tilts := [20, 21, 22])
  (by decide) (by decide) 0 0.4 1.5 2 0.2 0.03 0.05 15 3 1

end Pvlib.Props.Pvfactors
end
