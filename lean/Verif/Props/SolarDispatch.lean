import Verif.Model.SolarDispatch
import Verif.Props.SpaThreads
import Verif.Props.SpaPosition
import Verif.Props.SpaRiseSet
import Verif.Props.Ephemeris

/-! # C121-C124: choosing the solar position method, implementation and dates -/

noncomputable section
open Fl Classical

namespace Pvlib.Props.SolarDispatch

open Pvlib.SolarDispatch Pvlib.Spa Pvlib.SolarPosition Pvlib.Atmosphere Pvlib.Props.SpaGeometry

/-! ## C121: numba or numpy, after any history -/

/-- What `how` must lead to. -/
def wantNumba (numba : Numba) (how : String) : Bool := how == "numba" && numba == .works

/-- A call with `how` either succeeds and leaves the module compiled as asked (if numba is there), whatever its
state before; or raises. -/
theorem import_ok (numba : Numba) (how : String) (s : SpaState) (hs : s.useNumba = true → numba = .works) :
    (spaPythonImport numba how s).1 = .ok () →
      (how = "numba" ∨ how = "numpy") ∧ (spaPythonImport numba how s).2.useNumba = wantNumba numba how := by
  obtain ⟨u, e⟩ := s
  by_cases h1 : how = "numpy"
  · subst h1
    cases u <;> cases numba <;> simp [spaPythonImport, reloadWith, loadSpa, wantNumba] at *
  · by_cases h2 : how = "numba"
    · subst h2
      cases u <;> cases numba <;> simp [spaPythonImport, reloadWith, loadSpa, wantNumba] at *
    · simp [spaPythonImport, h1, h2]

example := import_ok .missing "numba" ⟨false, none⟩ (by decide) (by simp [spaPythonImport, reloadWith, loadSpa])

/-- When a call raises: exactly for an unknown `how` (nothing changes), or when numba is asked for, is not yet in
use and importing it fails with something other than ImportError. -/
theorem import_raises_iff (numba : Numba) (how : String) (s : SpaState) (e : PyErr) :
    (spaPythonImport numba how s).1 = .error e ↔
      (how ≠ "numba" ∧ how ≠ "numpy" ∧ e = .valueError) ∨
      (how = "numba" ∧ s.useNumba = false ∧ numba = .broken ∧ e = .runtimeError) := by
  obtain ⟨u, ev⟩ := s
  by_cases h1 : how = "numpy"
  · subst h1
    cases u <;> cases numba <;> simp [spaPythonImport, reloadWith, loadSpa]
  · by_cases h2 : how = "numba"
    · subst h2
      cases u <;> cases numba <;> simp [spaPythonImport, reloadWith, loadSpa, eq_comm]
    · simp [spaPythonImport, h1, h2, eq_comm]

example := (import_raises_iff .broken "numba" ⟨false, none⟩ .runtimeError).2 (Or.inr ⟨rfl, rfl, rfl, rfl⟩)

/-- An unknown `how` changes nothing. -/
theorem import_unknown (numba : Numba) (how : String) (s : SpaState) (h1 : how ≠ "numba") (h2 : how ≠ "numpy") :
    spaPythonImport numba how s = (.error .valueError, s) := by
  simp [spaPythonImport, h1, h2]

example := import_unknown .works "cuda" ⟨false, none⟩ (by decide) (by decide)

/-- The reachable states: numba is in use only if it can be imported. -/
def Sound (numba : Numba) (s : SpaState) : Prop := s.useNumba = true → numba = .works

theorem sound_load (numba : Numba) (s : SpaState) (h : Sound numba s) : Sound numba (loadSpa numba s).2 := by
  obtain ⟨u, e⟩ := s
  unfold loadSpa Sound at *
  by_cases h0 : e.getD "0" ≠ "0"
  · rw [if_pos h0]; cases numba <;> simp_all
  · rw [if_neg h0]; simp

theorem sound_import (numba : Numba) (how : String) (s : SpaState) (h : Sound numba s) :
    Sound numba (spaPythonImport numba how s).2 := by
  have key : ∀ v, Sound numba (reloadWith numba v s).2 := by
    intro v
    have := sound_load numba { s with env := some v } h
    unfold reloadWith
    split
    · rename_i e s' hh; rw [hh] at this; exact this
    · rename_i s' hh; rw [hh] at this; exact this
  unfold spaPythonImport
  split
  · exact key _
  · split
    · exact key _
    · split <;> exact h

theorem sound_history (numba : Numba) (s : SpaState) (h : Sound numba s) (hows : List String) :
    Sound numba (afterCalls numba s hows) := by
  induction hows generalizing s with
  | nil => exact h
  | cons a l ih => exact ih _ (sound_import numba a s h)

example := sound_history .missing ⟨false, none⟩ (by unfold Sound; decide) ["numba", "numpy"]

/-- **C121.** Import the module with any environment, make any calls (with any `how`, also ones that raise), then
call with `how`: if that call succeeds, the module runs numba exactly when `how` is "numba" and numba is
installed - nothing of the history matters. -/
theorem mode_is_last_how (numba : Numba) (env : Option String) (hows : List String) (how : String)
    (hok : (spaPythonImport numba how (afterCalls numba (loadSpa numba ⟨false, env⟩).2 hows)).1 = .ok ()) :
    (spaPythonImport numba how (afterCalls numba (loadSpa numba ⟨false, env⟩).2 hows)).2.useNumba =
      wantNumba numba how :=
  (import_ok numba how _ (sound_history numba _ (sound_load numba _ (by simp [Sound])) hows) hok).2

example := mode_is_last_how .works (some "1") ["numpy", "cuda", "numba"] "numpy" (by simp [afterCalls, spaPythonImport, reloadWith, loadSpa])

/-- Calling twice with the same `how` reloads at most once: the second call changes nothing, provided the first
got what it asked for. -/
theorem import_idempotent (numba : Numba) (how : String) (s : SpaState) (hs : Sound numba s)
    (hb : how = "numpy" ∨ how = "numba" ∧ numba = .works) :
    spaPythonImport numba how (spaPythonImport numba how s).2 = (.ok (), (spaPythonImport numba how s).2) := by
  obtain ⟨u, e⟩ := s
  rcases hb with rfl | ⟨rfl, rfl⟩
  · cases u <;> cases numba <;> simp_all [spaPythonImport, reloadWith, loadSpa, Sound]
  · cases u <;> simp [spaPythonImport, reloadWith, loadSpa]

example := import_idempotent .works "numba" ⟨false, none⟩ (by unfold Sound; decide) (Or.inr ⟨rfl, rfl⟩)

/-- The environment variable: a call that reloads leaves it unset (even if the user had set it); a call that does
not reload leaves it alone; only a broken numba leaves it at "1". -/
theorem import_env (numba : Numba) (how : String) (s : SpaState) :
    (spaPythonImport numba how s).2.env =
      if how = "numpy" ∧ s.useNumba = true then none
      else if how = "numba" ∧ s.useNumba = false then (if numba = .broken then some "1" else none)
      else s.env := by
  obtain ⟨u, e⟩ := s
  by_cases h1 : how = "numpy"
  · subst h1
    cases u <;> cases numba <;> simp [spaPythonImport, reloadWith, loadSpa]
  · by_cases h2 : how = "numba"
    · subst h2
      cases u <;> cases numba <;> simp [spaPythonImport, reloadWith, loadSpa]
    · simp [spaPythonImport, h1, h2]

/-- Loaded with numba, used with numpy, with an unknown name, and with numba again. -/
example : afterCalls .works (loadSpa .works ⟨false, some "1"⟩).2 ["numpy", "cuda", "numba"] = ⟨true, none⟩ := by
  simp [afterCalls, spaPythonImport, reloadWith, loadSpa]

example : (spaPythonImport .missing "numba" ⟨false, none⟩) = (.ok (), ⟨false, none⟩) := by
  simp [spaPythonImport, reloadWith, loadSpa]

/-! ## C122: the frames returned -/

/-- Every array `solar_position` can return is the pointwise one, and there is one. -/
theorem runs_eq (b : Bool) (mode : Mode) (loc : Loc) (ut : List (Fl × Fl)) (k : ℤ) :
    solarPositionRuns b mode loc ut k = {ut.map fun p => cells mode loc p.1 p.2} := by
  unfold solarPositionRuns
  cases b
  · rfl
  · simp only [if_true]
    have key : ∀ schedule before, Interleaving (threads mode loc ut k) schedule →
        ((List.range ut.length).map fun c => (List.range (dims mode)).map fun r => Mem.run before schedule r c) =
          ut.map fun p => cells mode loc p.1 p.2 := by
      intro schedule before hs
      refine List.ext_getElem (by simp) fun c h1 h2 => ?_
      simp only [List.length_map, List.length_range] at h1
      simp only [List.getElem_map, List.getElem_range]
      refine List.ext_getElem (by simp [SpaThreads.cells_length]) fun r h3 h4 => ?_
      simp only [List.getElem_map, List.getElem_range]
      refine SpaThreads.threaded_eq_numpy mode loc ut k schedule hs before c
        (cells mode loc ut[c].1 ut[c].2) ?_ r _ (List.getElem?_eq_getElem h4)
      unfold solarPositionNumpy
      rw [List.getElem?_map, List.getElem?_eq_getElem h1]
      rfl
    ext res
    simp only [Set.mem_setOf_eq, Set.mem_singleton_iff]
    constructor
    · rintro ⟨schedule, before, hs, rfl⟩
      exact key schedule before hs
    · intro h
      refine ⟨_, fun _ _ => 0, SpaThreads.interleaving_exists _, ?_⟩
      rw [h, key _ _ (SpaThreads.interleaving_exists _)]

/-- The row SPA gives for an instant. -/
def spaRow (w : Site) (ar : Fl) (u : ℝ) (dt : Fl) : Row :=
  let o := spaFull ⟨w.lat, w.lon, w.altitude, w.pressure / 100, w.temperature, ar⟩ (fin u) dt
  { apparent_zenith := o.apparent_zenith, zenith := o.zenith, apparent_elevation := o.apparent_elevation
    elevation := o.elevation, azimuth := o.azimuth, extra := [("equation_of_time", o.eot)] }

private theorem ut_eq (t : TimeIndex) (f : ℝ → Fl) :
    ((datetimeToUnixtime t).zip t.times |>.map fun p => (fin p.1, f p.2)) = t.times.map fun u => (fin u, f u) := by
  unfold datetimeToUnixtime
  obtain ⟨tz, l⟩ := t
  induction l with
  | nil => rfl
  | cons a l ih => simpa using ih

/-- **C122.** `spa_python`, with any number of threads, after any history and whether numba is there or not,
returns exactly one frame: SPA of each instant, whatever the zone of the index. -/
theorem spa_python_spec (numba : Numba) (cal : Calendar) (how : String) (t : TimeIndex) (w : Site) (kw : SpaKw)
    (s : SpaState) :
    (spaPython numba cal how t w kw s) =
      ((spaPythonImport numba how s).1.map fun _ =>
        {t.times.map fun u => spaRow w (refractDefault kw.atmos_refract) u (deltaTAt cal kw.delta_t u)},
        (spaPythonImport numba how s).2) := by
  unfold spaPython
  rcases h : spaPythonImport numba how s with ⟨_ | _, s'⟩
  · rfl
  · dsimp only [Except.map]
    rw [ut_eq, runs_eq]
    refine Prod.ext ?_ rfl
    dsimp only
    congr 1
    ext rows
    simp only [Set.mem_singleton_iff, Set.mem_setOf_eq, exists_eq_left, List.map_map]
    constructor
    · rintro rfl
      rfl
    · rintro rfl
      rfl

/-- `nrel_numba` and `nrel_numpy` return the same frames whenever both succeed, from any states and with any
numbers of threads. -/
theorem numba_numpy_agree (numba : Numba) (lib : Libraries) (cal : Calendar) (t : TimeIndex) (lat lon : Fl)
    (alt pres : Option Fl) (temp : Fl) (kw : SpaKw) (k : ℤ) (s s' : SpaState) (F G : Set (List Row))
    (h1 : (getSolarposition numba lib cal t lat lon alt pres "nrel_numba" temp kw s).1 = .ok F)
    (h2 : (getSolarposition numba lib cal t lat lon alt pres "nrel_numpy" temp { kw with numthreads := k } s').1 = .ok G) :
    F = G := by
  have e1 : pyLower "nrel_numba" = "nrel_numba" := by decide +kernel
  have e2 : pyLower "nrel_numpy" = "nrel_numpy" := by decide +kernel
  unfold getSolarposition at h1 h2
  simp only [e1, e2] at h1 h2
  rw [if_neg (by decide), if_pos trivial, spa_python_spec] at h1
  rw [if_neg (by decide), if_neg (by decide), if_pos trivial, spa_python_spec] at h2
  dsimp only at h1 h2
  rcases h : (spaPythonImport numba "numba" s).1 with _ | _
  · rw [h] at h1; cases h1
  · rcases h' : (spaPythonImport numba "numpy" s').1 with _ | _
    · rw [h'] at h2; cases h2
    · rw [h] at h1
      rw [h'] at h2
      simp only [Except.map, Except.ok.injEq] at h1 h2
      rw [← h1, ← h2]

/-- The names accepted: these five, in any capitalisation; all else raises ValueError. -/
def methods : List String := ["nrel_c", "nrel_numba", "nrel_numpy", "pyephem", "ephemeris"]

theorem unknown_method (numba : Numba) (lib : Libraries) (cal : Calendar) (t : TimeIndex) (lat lon : Fl)
    (alt pres : Option Fl) (m : String) (temp : Fl) (kw : SpaKw) (s : SpaState) (h : pyLower m ∉ methods) :
    getSolarposition numba lib cal t lat lon alt pres m temp kw s = (.error .valueError, s) := by
  simp only [methods, List.mem_cons, List.not_mem_nil, or_false, not_or] at h
  simp [getSolarposition, h]

example (lib : Libraries) (cal : Calendar) := unknown_method .works lib cal ⟨none, [0]⟩ (fin 35) (fin (-106)) none none "NREL" (fin 12) {} ⟨false, none⟩
  (by decide +kernel)

/-- Capitalisation does not matter. -/
theorem method_case (numba : Numba) (lib : Libraries) (cal : Calendar) (t : TimeIndex) (lat lon : Fl)
    (alt pres : Option Fl) (m m' : String) (temp : Fl) (kw : SpaKw) (s : SpaState) (h : pyLower m = pyLower m') :
    getSolarposition numba lib cal t lat lon alt pres m temp kw s =
      getSolarposition numba lib cal t lat lon alt pres m' temp kw s := by
  unfold getSolarposition
  rw [h]

example : pyLower "NREL_Numpy" = pyLower "nrel_numpy" := by decide +kernel

/-- Leaving out the pressure means the standard pressure of the altitude; leaving out the altitude means the
altitude of the pressure; leaving out both means sea level. -/
theorem defaults (numba : Numba) (lib : Libraries) (cal : Calendar) (t : TimeIndex) (lat lon a p : Fl)
    (m : String) (temp : Fl) (kw : SpaKw) (s : SpaState) :
    getSolarposition numba lib cal t lat lon (some a) none m temp kw s =
        getSolarposition numba lib cal t lat lon (some a) (some (alt2pres a)) m temp kw s ∧
    getSolarposition numba lib cal t lat lon none (some p) m temp kw s =
        getSolarposition numba lib cal t lat lon (some (pres2alt p)) (some p) m temp kw s ∧
    getSolarposition numba lib cal t lat lon none none m temp kw s =
        getSolarposition numba lib cal t lat lon (some 0) (some 101325) m temp kw s := by
  refine ⟨rfl, rfl, rfl⟩

/-- The zone an index is shown in never matters, only its instants. -/
theorem zone_irrelevant (numba : Numba) (lib : Libraries) (cal : Calendar) (z z' : Option Zone) (l : List ℝ)
    (lat lon : Fl) (alt pres : Option Fl) (m : String) (temp : Fl) (kw : SpaKw) (s : SpaState) :
    getSolarposition numba lib cal ⟨z, l⟩ lat lon alt pres m temp kw s =
      getSolarposition numba lib cal ⟨z', l⟩ lat lon alt pres m temp kw s := rfl

private theorem ephem_rows (o : EphemOut) (t : UtcTime) (lat lon p T e : Fl)
    (h : o = ephemFinish t lat lon p T e) : o.zenith = 90 - o.elevation ∧ o.apparent_zenith = 90 - o.apparent_elevation := by
  subst h; exact ⟨rfl, rfl⟩

private theorem zip_forall {α β γ : Type} (f : α → β → γ) (P : γ → Prop) (h : ∀ a b, P (f a b)) (l : List α) (l' : List β) :
    ∀ x ∈ List.zipWith f l l', P x := by
  induction l generalizing l' with
  | nil => simp
  | cons a l ih =>
    cases l' with
    | nil => simp
    | cons b l' =>
      intro x hx
      simp only [List.zipWith_cons_cons, List.mem_cons] at hx
      rcases hx with rfl | hx
      · exact h a b
      · exact ih l' x hx

private theorem kepler_len (me : List (Fl × Fl)) (n : ℕ) :
    ∀ E E0 out, E.length = me.length → E0.length = me.length → keplerLoop me n E E0 = some out → out.length = me.length := by
  induction n with
  | zero =>
    intro E E0 out h1 h2 h
    simp only [keplerLoop] at h
    split at h
    · cases h
    · simp only [Option.some.injEq] at h; subst h; exact h2
  | succ n ih =>
    intro E E0 out h1 h2 h
    rw [keplerLoop] at h
    split at h
    · refine ih _ _ _ ?_ ?_ h
      · exact h2
      · simp [h2]
    · simp only [Option.some.injEq] at h; subst h; exact h2

/-- **C122.** Every frame any method returns has one row per time; zenith and elevation are complementary, and so
are apparent zenith and apparent elevation except that `nrel_c` passes on both from the C code. -/
theorem frame_shape (numba : Numba) (lib : Libraries) (cal : Calendar) (t : TimeIndex) (lat lon : Fl)
    (alt pres : Option Fl) (m : String) (temp : Fl) (kw : SpaKw) (s : SpaState) (F : Set (List Row)) (rows : List Row)
    (h : (getSolarposition numba lib cal t lat lon alt pres m temp kw s).1 = .ok F) (hr : rows ∈ F) :
    rows.length = t.times.length ∧ (∀ r ∈ rows, r.zenith = 90 - r.elevation) ∧
    (pyLower m ≠ "nrel_c" → ∀ r ∈ rows, r.apparent_zenith = 90 - r.apparent_elevation) := by
  have hspa : ∀ how w, (spaPython numba cal how t w kw s).1 = .ok F →
      rows.length = t.times.length ∧ (∀ r ∈ rows, r.zenith = 90 - r.elevation) ∧
      (pyLower m ≠ "nrel_c" → ∀ r ∈ rows, r.apparent_zenith = 90 - r.apparent_elevation) := by
    intro how w hh
    rw [spa_python_spec] at hh
    dsimp only at hh
    rcases h' : (spaPythonImport numba how s).1 with _ | _
    · rw [h'] at hh; cases hh
    · rw [h'] at hh
      simp only [Except.map, Except.ok.injEq] at hh
      rw [← hh, Set.mem_singleton_iff] at hr
      subst hr
      refine ⟨by simp, fun r hr => ?_, fun _ r hr => ?_⟩ <;>
      · rw [List.mem_map] at hr
        obtain ⟨u, -, rfl⟩ := hr
        rfl
  unfold getSolarposition at h
  dsimp only at h
  by_cases h1 : pyLower m = "nrel_c"
  · rw [if_pos h1] at h
    simp only [Except.ok.injEq] at h
    rw [← h, Set.mem_singleton_iff] at hr
    subst hr
    refine ⟨by simp [spaC], fun r hr => ?_, fun hc => absurd h1 hc⟩
    unfold spaC at hr
    rw [List.mem_map] at hr
    obtain ⟨u, -, rfl⟩ := hr
    rfl
  rw [if_neg h1] at h
  by_cases h2 : pyLower m = "nrel_numba"
  · rw [if_pos h2] at h; exact hspa _ _ h
  rw [if_neg h2] at h
  by_cases h3 : pyLower m = "nrel_numpy"
  · rw [if_pos h3] at h; exact hspa _ _ h
  rw [if_neg h3] at h
  by_cases h4 : pyLower m = "pyephem"
  · rw [if_pos h4] at h
    simp only [Except.ok.injEq] at h
    rw [← h, Set.mem_singleton_iff] at hr
    subst hr
    refine ⟨by simp [pyephem], fun r hr => ?_, fun _ r hr => ?_⟩ <;>
    · unfold pyephem at hr
      rw [List.mem_map] at hr
      obtain ⟨u, -, rfl⟩ := hr
      rfl
  rw [if_neg h4] at h
  by_cases h5 : pyLower m = "ephemeris"
  · rw [if_pos h5] at h
    dsimp only at h
    split at h
    · cases h
    · rename_i hne
      simp only [Except.ok.injEq] at h
      rw [← h] at hr
      obtain ⟨fuel, out, ho, rfl⟩ := hr
      unfold ephemeris at ho
      rw [if_neg (by simpa using hne)] at ho
      dsimp only at ho
      split at ho
      · simp at ho
      · rename_i ecc hk
        simp only [Except.ok.injEq, Option.some.injEq] at ho
        have hl := kepler_len _ _ _ _ _ (by simp) (by simp) hk
        subst ho
        refine ⟨by simp at hl ⊢; omega, ?_, ?_⟩
        · intro r hr
          rw [List.mem_map] at hr
          obtain ⟨o, ho, rfl⟩ := hr
          exact zip_forall _ (fun o : EphemOut => o.zenith = 90 - o.elevation) (fun a b => rfl) _ _ o ho
        · intro _ r hr
          rw [List.mem_map] at hr
          obtain ⟨o, ho, rfl⟩ := hr
          exact zip_forall _ (fun o : EphemOut => o.apparent_zenith = 90 - o.apparent_elevation) (fun a b => rfl) _ _ o ho
  · rw [if_neg h5] at h; cases h

theorem demo_numpy (lib : Libraries) (cal : Calendar) (t : TimeIndex) : (getSolarposition .missing lib cal t (fin 35) (fin (-106)) none none
    "nrel_numpy" (fin 12) {} ⟨false, none⟩).1 = .ok {t.times.map fun u => spaRow ⟨fin 35, fin (-106), (altPres none none).1, (altPres none none).2,
      fin 12⟩ (refractDefault none) u (deltaTAt cal (some 67.0) u)} := by
  have hl : pyLower "nrel_numpy" = "nrel_numpy" := by decide +kernel
  unfold getSolarposition
  dsimp only
  rw [hl, if_neg (by decide), if_neg (by decide), if_pos rfl, spa_python_spec]
  simp [spaPythonImport, Except.map]

theorem demo_numba (lib : Libraries) (cal : Calendar) (t : TimeIndex) : (getSolarposition .missing lib cal t (fin 35) (fin (-106)) none none
    "nrel_numba" (fin 12) {} ⟨false, none⟩).1 = .ok {t.times.map fun u => spaRow ⟨fin 35, fin (-106), (altPres none none).1, (altPres none none).2,
      fin 12⟩ (refractDefault none) u (deltaTAt cal (some 67.0) u)} := by
  have hl : pyLower "nrel_numba" = "nrel_numba" := by decide +kernel
  unfold getSolarposition
  dsimp only
  rw [hl, if_neg (by decide), if_pos rfl, spa_python_spec]
  simp [spaPythonImport, reloadWith, loadSpa, Except.map]

example (lib : Libraries) (cal : Calendar) := frame_shape .missing lib cal ⟨none, [0, 3600]⟩ (fin 35) (fin (-106)) none none "nrel_numpy"
  (fin 12) {} ⟨false, none⟩ _ _ (demo_numpy lib cal ⟨none, [0, 3600]⟩) rfl
example (lib : Libraries) (cal : Calendar)  := numba_numpy_agree .missing lib cal ⟨none, [0, 3600]⟩ (fin 35) (fin (-106)) none none
  (fin 12) {} 4 ⟨false, none⟩ ⟨false, none⟩ _ _ (demo_numba lib cal ⟨none, [0, 3600]⟩) (demo_numpy lib cal ⟨none, [0, 3600]⟩)

/-- With `nrel_c` the C code is told that the site's elevation is the air temperature, and that the temperature is
12 degrees, whatever altitude and temperature were given; fractions of a second are dropped. -/
theorem nrel_c_arguments (numba : Numba) (lib : Libraries) (cal : Calendar) (t : TimeIndex) (lat lon a p temp : Fl)
    (kw : SpaKw) (s : SpaState) :
    (getSolarposition numba lib cal t lat lon (some a) (some p) "nrel_c" temp kw s).1 =
      .ok {t.times.map fun u => let o := lib.spaCalc ⌊u⌋ lat lon temp (p / 100) 12 67
        { azimuth := o.1, apparent_zenith := o.2.1, apparent_elevation := o.2.2.1, elevation := o.2.2.2,
          zenith := 90 - o.2.2.2 }} := by
  have e1 : pyLower "nrel_c" = "nrel_c" := by decide +kernel
  unfold getSolarposition
  simp only [e1]
  rfl

/-- Asking for no refraction at sunrise (0) gives the default instead. -/
theorem refract_zero : refractDefault (some 0) = refractDefault none ∧
    ∀ a : Fl, a ≠ 0 → refractDefault (some a) = a :=
  ⟨by simp [refractDefault], fun a h => if_neg h⟩

example := refract_zero.2 (fin 0.5) (by rw [zero_eq, Ne, fin_inj]; norm_num)

/-- **C122.** The default method never fails: for every index of times within 4000 years of 2000, every site below
the poles and below 1000 km, and any pressure and temperature, after any history, the frame has real elevations in [-90, 90]
and azimuths in [0, 360). -/
theorem numpy_total (numba : Numba) (lib : Libraries) (cal : Calendar) (t : TimeIndex) (φ lon E dt : ℝ) (P T : Fl)
    (kw : SpaKw) (s : SpaState) (hφ : |φ| < 90) (hE : |E| ≤ 1000000) (hk : kw.delta_t = some (fin dt))
    (ht : ∀ u ∈ t.times, |(u + dt) / 86400 + 2440587.5 - 2451545| ≤ 4 * 365250) :
    ∃ rows, (getSolarposition numba lib cal t (fin φ) (fin lon) (some (fin E)) (some P) "nrel_numpy" T kw s).1 = .ok {rows} ∧
      rows.length = t.times.length ∧
      ∀ r ∈ rows, ∃ e A : ℝ, r.elevation = fin e ∧ r.zenith = fin (90 - e) ∧ r.azimuth = fin A ∧
        -90 ≤ e ∧ e ≤ 90 ∧ 0 ≤ A ∧ A < 360 := by
  have e1 : pyLower "nrel_numpy" = "nrel_numpy" := by decide +kernel
  have hok : (spaPythonImport numba "numpy" s).1 = .ok () := by
    rcases h : (spaPythonImport numba "numpy" s).1 with e | ⟨⟩
    · have := (import_raises_iff numba "numpy" s e).mp h
      simp at this
    · rfl
  refine ⟨t.times.map fun u => spaRow ⟨fin φ, fin lon, fin E, P, T⟩ (refractDefault kw.atmos_refract) u
    (deltaTAt cal kw.delta_t u), ?_, by simp, ?_⟩
  · unfold getSolarposition
    simp only [e1]
    rw [if_neg (by decide), if_neg (by decide), if_pos trivial, spa_python_spec, hok]
    rfl
  · intro r hr
    rw [List.mem_map] at hr
    obtain ⟨u, hu, rfl⟩ := hr
    have hd : deltaTAt cal kw.delta_t u = fin dt := by rw [hk]; rfl
    rw [hd]
    obtain ⟨e, A, q, h1, h2, h3, -, h5, h6, h7, h8, -⟩ :=
      SpaPosition.spa_total φ lon E (P / 100) T (refractDefault kw.atmos_refract) u dt hφ hE (ht u hu)
    exact ⟨e, A, h1, h2, h3, h5, h6, h7, h8⟩

example : ∃ u : ℝ, |(u + 67) / 86400 + 2440587.5 - 2451545| ≤ 4 * 365250 :=
  ⟨1577836800, by norm_num [abs_le]⟩

/-! ## C123: sunrise and sunset by SPA -/

/-- The date handed to SPA: a whole day, at or before the wall-clock time and less than a day earlier. -/
theorem localDate_spec (z : Zone) (u : ℝ) : ∃ n : ℤ, localDate z u = 86400 * n ∧ 86400 * n ≤ u + z u ∧
    u + z u < 86400 * (n + 1) := by
  refine ⟨⌊wall z u / 86400⌋, rfl, ?_, ?_⟩
  · have := Int.floor_le (wall z u / 86400)
    rw [le_div_iff₀ (by norm_num)] at this
    unfold wall at this ⊢
    linarith
  · have := Int.lt_floor_add_one (wall z u / 86400)
    rw [div_lt_iff₀ (by norm_num)] at this
    unfold wall at this ⊢
    linarith

/-- A naive index is refused. -/
theorem rise_set_naive (numba : Numba) (cal : Calendar) (l : List ℝ) (lat lon : Fl) (how : String)
    (dt : Option Fl) (s : SpaState) :
    sunRiseSetTransitSpa numba cal ⟨none, l⟩ lat lon how dt s = (.error .valueError, s) := rfl

private theorem rise_set_eq (numba : Numba) (cal : Calendar) (z : Zone) (l : List ℝ) (lat lon : Fl) (how : String)
    (dt : Option Fl) (s : SpaState) :
    sunRiseSetTransitSpa numba cal ⟨some z, l⟩ lat lon how dt s =
      ((spaPythonImport numba how s).1.map fun _ => l.map fun u =>
        let o := transitSunriseSunset1 spaSst lat lon (deltaTAt cal dt u) (fin (localDate z u))
        (o.2.1, o.2.2, o.1), (spaPythonImport numba how s).2) := by
  unfold sunRiseSetTransitSpa
  dsimp only
  rcases h : spaPythonImport numba how s with ⟨_ | _, s'⟩
  · rfl
  · dsimp only [Except.map]
    have hok := (SpaRiseSet.accepts_iff spaSst lat lon
      (l.map fun u => (fin (localDate z u), deltaTAt cal dt u)))
    unfold transitSunriseSunset
    rw [if_neg]
    · simp [List.map_map, Function.comp_def]
    · rintro ⟨d, hd, hne⟩
      rw [List.mem_map] at hd
      obtain ⟨u, -, rfl⟩ := hd
      exact hne ((SpaRiseSet.mod_zero_iff _).mpr ⟨⌊wall z u / 86400⌋, rfl⟩)

/-- **C123.** With a localized index the call fails only if `how` does: no time of day, no zone, no clock change
makes it raise; and it answers every timestamp with the sun's day on that timestamp's local calendar date. -/
theorem rise_set_spec (numba : Numba) (cal : Calendar) (z : Zone) (l : List ℝ) (lat lon : Fl) (how : String)
    (dt : Option Fl) (s : SpaState) (hok : (spaPythonImport numba how s).1 = .ok ()) :
    ∃ out, (sunRiseSetTransitSpa numba cal ⟨some z, l⟩ lat lon how dt s).1 = .ok out ∧ out.length = l.length ∧
      ∀ (i : ℕ) (u : ℝ), l[i]? = some u → ∃ n : ℤ, 86400 * n ≤ u + z u ∧ u + z u < 86400 * (n + 1) ∧
        out[i]? = some (
          (transitSunriseSunset1 spaSst lat lon (deltaTAt cal dt u) (fin (86400 * n))).2.1,
          (transitSunriseSunset1 spaSst lat lon (deltaTAt cal dt u) (fin (86400 * n))).2.2,
          (transitSunriseSunset1 spaSst lat lon (deltaTAt cal dt u) (fin (86400 * n))).1) := by
  refine ⟨_, by rw [rise_set_eq, hok]; rfl, by simp, ?_⟩
  intro i u hi
  obtain ⟨n, h1, h2, h3⟩ := localDate_spec z u
  refine ⟨n, h2, h3, ?_⟩
  rw [List.getElem?_map, hi, ← h1]
  rfl

example (cal : Calendar) := rise_set_spec .missing cal (fun _ => -7 * 3600) [1577836800] (fin 35) (fin (-106)) "numpy" (some (fin 67)) ⟨false, none⟩
  (by simp [spaPythonImport])

/-- All times of one local date get the same answer (with `delta_t` given), whatever their time of day, so also
across a clock change within the day. -/
theorem same_date_same_answer (numba : Numba) (cal : Calendar) (z : Zone) (u u' : ℝ) (lat lon : Fl) (how : String)
    (d : Fl) (s : SpaState) (n : ℤ) (h1 : 86400 * n ≤ u + z u) (h2 : u + z u < 86400 * (n + 1))
    (h1' : 86400 * n ≤ u' + z u') (h2' : u' + z u' < 86400 * (n + 1)) :
    sunRiseSetTransitSpa numba cal ⟨some z, [u]⟩ lat lon how (some d) s =
      sunRiseSetTransitSpa numba cal ⟨some z, [u']⟩ lat lon how (some d) s := by
  have e : ∀ x : ℝ, 86400 * n ≤ x + z x → x + z x < 86400 * (n + 1) → localDate z x = 86400 * n := by
    intro x a b
    unfold localDate dayStart
    rw [show ⌊wall z x / 86400⌋ = n by
      rw [Int.floor_eq_iff]
      unfold wall
      constructor
      · rw [le_div_iff₀ (by norm_num)]; linarith
      · rw [div_lt_iff₀ (by norm_num)]; linarith]
  rw [rise_set_eq, rise_set_eq]
  simp only [List.map_cons, List.map_nil, e u h1 h2, e u' h1' h2', deltaTAt]

/-- Two zones in which the instant falls on different local dates are answered for different days: an evening in
New York gets that day's sunset, not the next day's as its UTC date would. -/
example : ∃ z : Zone, localDate z (86400 + 3600) = 0 ∧ localDate (fun _ => 0) (86400 + 3600) = 86400 := by
  refine ⟨fun _ => -5 * 3600, ?_, ?_⟩ <;> unfold localDate dayStart wall
  · rw [show ⌊((86400 + 3600 + -5 * 3600 : ℝ)) / 86400⌋ = 0 by rw [Int.floor_eq_iff]; norm_num]; norm_num
  · rw [show ⌊((86400 + 3600 + 0 : ℝ)) / 86400⌋ = 1 by rw [Int.floor_eq_iff]; norm_num]; norm_num

/-- **C123.** Up to 60 degrees of latitude, for every date within 4000 years of 2000, the transit is a real time and sunrise and
sunset lie symmetrically `H/360` of a day before and after its approximation, up to the altitude corrections, where `H` solves
the horizon equation for the declination of the day. -/
theorem rise_set_real (numba : Numba) (cal : Calendar) (z : Zone) (u φ lon dt : ℝ) (s : SpaState) (hφ : |φ| ≤ 60)
    (hdt : |dt| ≤ 86400) (hu : |(u + z u) / 86400 + 2440587.5 - 2451545| ≤ 4 * 365250 - 3) :
    ∃ (n : ℤ) (δ m τ H : ℝ) (cR cS : Fl), 86400 * n ≤ u + z u ∧ u + z u < 86400 * (n + 1) ∧
      (sunRiseSetTransitSpa numba cal ⟨some z, [u]⟩ (fin φ) (fin lon) "numpy" (some (fin dt)) s).1 =
        .ok [(fin ((m - H / 360) * 86400 + 86400 * n) + cR * 86400, fin ((m + H / 360) * 86400 + 86400 * n) + cS * 86400, fin τ)] ∧
      0 ≤ m ∧ m < 1 ∧ |τ - (86400 * n + 86400 * m)| ≤ 43200 ∧ 0 ≤ H ∧ H < 180 ∧ |δ| < 24.3 ∧
      SolarGeometry.sunUp (rad φ) (rad δ) (rad H) = SpaRiseSet.horizonSin := by
  obtain ⟨n, h1, h2, h3⟩ := localDate_spec z u
  have hn : |86400 * (n : ℝ) / 86400 + 2440587.5 - 2451545| ≤ 4 * 365250 - 2 := by
    have a := abs_le.mp hu
    have b2 : (u + z u) / 86400 < n + 1 := by rw [div_lt_iff₀ (by norm_num)]; linarith
    have b1 : (n : ℝ) ≤ (u + z u) / 86400 := by rw [le_div_iff₀ (by norm_num)]; linarith
    rw [abs_le, mul_div_assoc, mul_div_cancel₀ _ (by norm_num : (86400:ℝ) ≠ 0)]
    constructor <;> linarith
  obtain ⟨δ, m, τ, hδ, -, m1, m2, hτ, hτ2, -, hc⟩ := SpaRiseSet.spa_rise_set φ lon dt n (by linarith) hdt hn
  obtain ⟨c1, c2⟩ := SpaRiseSet.no_polar_day φ δ hφ hδ
  obtain ⟨H, cR, cS, H1, H2, H3, hR, hS⟩ := hc c1 c2
  refine ⟨n, δ, m, τ, H, cR, cS, h2, h3, ?_, m1, m2, hτ2, H1, H2, hδ, H3⟩
  have hok : (spaPythonImport numba "numpy" s).1 = .ok () := by
    rcases h : (spaPythonImport numba "numpy" s).1 with e | ⟨⟩
    · have := (import_raises_iff numba "numpy" s e).mp h
      simp at this
    · rfl
  rw [rise_set_eq, hok]
  simp only [Except.map, List.map_cons, List.map_nil, deltaTAt, h1, hτ, hR, hS]

example (cal : Calendar) := rise_set_real .missing cal (fun _ => -7 * 3600) 1577836800 35 (-106) 67 ⟨false, none⟩ (by norm_num) (by norm_num)
  (by norm_num [abs_le])

/-! ## C124: earth-sun distance and PyEphem times -/

/-- **C124.** The earth-sun distance is one number per time, between 0.978 and 1.0222 AU within 4000 years of
2000, whatever `how`, threads and history. -/
theorem distance_spec (numba : Numba) (cal : Calendar) (how : String) (t : TimeIndex) (dt : ℝ) (k : ℤ) (s : SpaState)
    (hok : (spaPythonImport numba how s).1 = .ok ())
    (ht : ∀ u ∈ t.times, |(u + dt) / 86400 + 2440587.5 - 2451545| ≤ 4 * 365250) :
    ∃ ds, (nrelEarthsunDistance numba cal how t (some (fin dt)) k s).1 = .ok {ds} ∧ ds.length = t.times.length ∧
      ∀ d ∈ ds, ∃ R, d = fin R ∧ 0.978 < R ∧ R < 1.0222 := by
  refine ⟨t.times.map fun u => spaRadius (fin u) (fin dt), ?_, by simp, ?_⟩
  · unfold nrelEarthsunDistance
    rcases h : spaPythonImport numba how s with ⟨_ | _, s'⟩
    · rw [h] at hok; cases hok
    · dsimp only
      rw [ut_eq, runs_eq]
      congr 1
      ext rows
      simp only [Set.mem_singleton_iff, Set.mem_setOf_eq, exists_eq_left, List.map_map]
      constructor
      · rintro rfl
        rfl
      · rintro rfl
        rfl
  · intro d hd
    rw [List.mem_map] at hd
    obtain ⟨u, hu, rfl⟩ := hd
    exact SpaBounds.spa_distance_range u dt (ht u hu)

example (cal : Calendar) := distance_spec .missing cal "numpy" ⟨none, [1577836800]⟩ 67 4 ⟨false, none⟩ (by simp [spaPythonImport])
  (by intro u hu; obtain rfl := List.mem_singleton.mp hu; norm_num [abs_le])

theorem pyRound_near (x : ℝ) : |(pyRound x : ℝ) - x| ≤ 1 / 2 := by
  have h1 := Int.floor_le x
  have h2 := Int.lt_floor_add_one x
  unfold pyRound
  rw [abs_le]
  split_ifs <;> push_cast <;> constructor <;> linarith

/-- Ties go to the even neighbour, as Python's `round` does. -/
theorem pyRound_tie (k : ℤ) : pyRound (k + 1 / 2) = if k % 2 = 0 then k else k + 1 := by
  have hf : ⌊(k : ℝ) + 1 / 2⌋ = k := by
    rw [Int.floor_intCast_add]
    norm_num
  unfold pyRound
  rw [hf]
  have e : (k : ℝ) + 1 / 2 - k = 1 / 2 := by ring
  rw [e, if_neg (lt_irrefl _), if_neg (lt_irrefl _)]

/-- Anything else goes to the nearest integer. -/
theorem pyRound_nearest (x : ℝ) (k : ℤ) (h : |x - k| < 1 / 2) : pyRound x = k := by
  rw [abs_lt] at h
  have h1 := Int.floor_le x
  have h2 := Int.lt_floor_add_one x
  unfold pyRound
  split_ifs with a b c
  · have l : (⌊x⌋ : ℝ) < k + 1 := by linarith
    have u : (k : ℝ) < ⌊x⌋ + 1 := by linarith
    have l' : ⌊x⌋ < k + 1 := by exact_mod_cast l
    have u' : k < ⌊x⌋ + 1 := by exact_mod_cast u
    omega
  · have l : (⌊x⌋ : ℝ) + 1 < k + 1 := by linarith
    have u : (k : ℝ) < ⌊x⌋ + 1 + 1 := by linarith
    have l' : ⌊x⌋ + 1 < k + 1 := by exact_mod_cast l
    have u' : k < ⌊x⌋ + 1 + 1 := by exact_mod_cast u
    omega
  all_goals
    exfalso
    have e : x = ⌊x⌋ + 1 / 2 := by linarith
    have l : (⌊x⌋ : ℝ) < k := by linarith
    have u : (k : ℝ) < ⌊x⌋ + 1 := by linarith
    have l' : ⌊x⌋ < k := by exact_mod_cast l
    have u' : k < ⌊x⌋ + 1 := by exact_mod_cast u
    omega

example : pyRound 2.5 = 2 ∧ pyRound 3.5 = 4 := by
  have a := pyRound_tie 2
  have b := pyRound_tie 3
  norm_num at a b ⊢
  exact ⟨a, b⟩

/-- **C122.** The `pyephem` rows: apparent values from the library with the site's pressure (in mbar), true ones from the library without air. -/
theorem pyephem_rows (lib : Libraries) (t : TimeIndex) (w : Site) (i : ℕ) (h : i < t.times.length) :
    ∃ r, (pyephem lib t w)[i]? = some r ∧
      let a := lib.ephemSun w.lat w.lon w.altitude (w.pressure / 100) w.temperature t.times[i]
      let v := lib.ephemSun w.lat w.lon w.altitude 0 w.temperature t.times[i]
      r.apparent_elevation = Fl.degrees a.1 ∧ r.apparent_zenith = 90 - Fl.degrees a.1 ∧ r.extra = [("apparent_azimuth", Fl.degrees a.2)] ∧
      r.elevation = Fl.degrees v.1 ∧ r.zenith = 90 - Fl.degrees v.1 ∧ r.azimuth = Fl.degrees v.2 := by
  refine ⟨_, by simp only [pyephem, List.getElem?_map, List.getElem?_eq_getElem h, Option.map_some]; rfl, rfl, rfl, rfl, rfl, rfl, rfl⟩

example (lib : Libraries) (w : Site) := pyephem_rows lib ⟨none, [0]⟩ w 0 (by decide)

/-- **C122.** The `ephemeris` rows add the column `solar_time`; the method cannot take an empty index (ValueError). -/
theorem ephemeris_rows (numba : Numba) (lib : Libraries) (cal : Calendar) (t : TimeIndex) (lat lon : Fl) (a p : Option Fl)
    (method : String) (hm : pyLower method = "ephemeris") (temperature : Fl) (kw : SpaKw) (s : SpaState) :
    (t.times = [] → (getSolarposition numba lib cal t lat lon a p method temperature kw s).1 = .error .valueError) ∧
    (t.times ≠ [] → ∃ S, (getSolarposition numba lib cal t lat lon a p method temperature kw s).1 = .ok S ∧
      ∀ rows ∈ S, ∃ fuel out, ephemeris fuel (t.times.map cal.fields) lat lon (altPres a p).2 temperature = .ok (some out) ∧
        rows.length = out.length ∧ ∀ (i : ℕ) (h : i < rows.length) (h' : i < out.length),
          rows[i].apparent_zenith = out[i].apparent_zenith ∧ rows[i].zenith = out[i].zenith ∧
          rows[i].apparent_elevation = out[i].apparent_elevation ∧ rows[i].elevation = out[i].elevation ∧
          rows[i].azimuth = out[i].azimuth ∧ rows[i].extra = [("solar_time", out[i].solar_time)]) := by
  unfold getSolarposition
  dsimp only
  rw [hm, if_neg (by decide), if_neg (by decide), if_neg (by decide), if_neg (by decide), if_pos rfl]
  constructor
  · intro h
    rw [if_pos h]
  · intro h
    rw [if_neg h]
    refine ⟨_, rfl, ?_⟩
    rintro rows ⟨fuel, out, h1, rfl⟩
    refine ⟨fuel, out, h1, by simp, fun i h2 h3 => ?_⟩
    simp [rowOfEphem]

example (numba : Numba) (lib : Libraries) (cal : Calendar) (s : SpaState) :=
  (ephemeris_rows numba lib cal ⟨none, []⟩ 0 0 none none "Ephemeris" (by decide) 12 {} s).1 rfl

/-- **C124.** A PyEphem date (days since noon of 1899-12-31) becomes the nearest microsecond, before and after
1970 alike; the microsecond field is always valid. -/
theorem ephem_time (d : ℝ) : |ephemToTimezone d - (86400 * d - 2209032000)| ≤ 0.0000005 ∧
    0 ≤ (ephemConvert d).2 ∧ (ephemConvert d).2 < 1000000 := by
  have h := pyRound_near (24 * 60 * 60 * 1000000 * d)
  set k := pyRound (24 * 60 * 60 * 1000000 * d) with hk
  have e : ephemConvert d = (k / 1000000 - 2209032000, k % 1000000) := rfl
  have hdm : (k : ℝ) = 1000000 * ((k / 1000000 : ℤ) : ℝ) + ((k % 1000000 : ℤ) : ℝ) := by
    exact_mod_cast (Int.mul_ediv_add_emod k 1000000).symm
  refine ⟨?_, ?_, ?_⟩
  · unfold ephemToTimezone
    rw [e]
    dsimp only
    push_cast
    rw [abs_le] at h ⊢
    norm_num at h ⊢
    constructor <;> linarith
  · rw [e]; exact Int.emod_nonneg _ (by norm_num)
  · rw [e]; exact Int.emod_lt_of_pos _ (by norm_num)

/-- `sun_rise_set_transit_ephem` raises exactly for naive times or another word than next/previous (in any case). -/
theorem ephem_rise_set_raises (ev : EphemEvents) (t : TimeIndex) (w : String) :
    (∃ e, sunRiseSetTransitEphem ev t w = .error e) ↔
      t.tz = none ∨ (pyLower w ≠ "next" ∧ pyLower w ≠ "previous") := by
  unfold sunRiseSetTransitEphem
  rcases h : t.tz with _ | z
  · simp
  · by_cases h1 : pyLower w = "next"
    · simp [h1]
    · by_cases h2 : pyLower w = "previous"
      · simp [h2]
      · simp [h1, h2]

/-- Every answer is PyEphem's, to half a microsecond. -/
theorem ephem_rise_set (ev : EphemEvents) (z : Zone) (l : List ℝ) (w : String) (out : List (ℝ × ℝ × ℝ))
    (h : sunRiseSetTransitEphem ev ⟨some z, l⟩ w = .ok out) :
    out.length = l.length ∧ ∀ (i : ℕ) (u : ℝ) (o : ℝ × ℝ × ℝ), l[i]? = some u → out[i]? = some o →
      (pyLower w = "next" →
        |o.1 - (86400 * ev.nextRising u - 2209032000)| ≤ 0.0000005 ∧
        |o.2.1 - (86400 * ev.nextSetting u - 2209032000)| ≤ 0.0000005 ∧
        |o.2.2 - (86400 * ev.nextTransit u - 2209032000)| ≤ 0.0000005) ∧
      (pyLower w = "previous" →
        |o.1 - (86400 * ev.previousRising u - 2209032000)| ≤ 0.0000005 ∧
        |o.2.1 - (86400 * ev.previousSetting u - 2209032000)| ≤ 0.0000005 ∧
        |o.2.2 - (86400 * ev.previousTransit u - 2209032000)| ≤ 0.0000005) := by
  unfold sunRiseSetTransitEphem at h
  dsimp only at h
  by_cases h1 : pyLower w = "next"
  · rw [if_pos h1] at h
    simp only [Except.ok.injEq] at h
    subst h
    refine ⟨by simp, fun i u o hi ho => ⟨fun _ => ?_, fun h2 => ?_⟩⟩
    · rw [List.getElem?_map, hi] at ho
      simp only [Option.map_some, Option.some.injEq] at ho
      subst ho
      exact ⟨(ephem_time _).1, (ephem_time _).1, (ephem_time _).1⟩
    · rw [h1] at h2; exact absurd h2 (by decide)
  · rw [if_neg h1] at h
    by_cases h2 : pyLower w = "previous"
    · rw [if_pos h2] at h
      simp only [Except.ok.injEq] at h
      subst h
      refine ⟨by simp, fun i u o hi ho => ⟨fun h => absurd h h1, fun _ => ?_⟩⟩
      rw [List.getElem?_map, hi] at ho
      simp only [Option.map_some, Option.some.injEq] at ho
      subst ho
      exact ⟨(ephem_time _).1, (ephem_time _).1, (ephem_time _).1⟩
    · rw [if_neg h2] at h; cases h

example : ephemConvert 25567.5 = (0, 0) := by
  have : pyRound (24 * 60 * 60 * 1000000 * 25567.5) = 2209032000000000 := by
    unfold pyRound
    have : ⌊(24 * 60 * 60 * 1000000 * 25567.5 : ℝ)⌋ = 2209032000000000 := by
      rw [Int.floor_eq_iff]; norm_num
    rw [this]
    norm_num
  unfold ephemConvert
  rw [this]
  rfl

end Pvlib.Props.SolarDispatch
end
