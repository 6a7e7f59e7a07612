import Verif.Model.Location
import Verif.Props.Spec
import Mathlib.Tactic.IntervalCases

/-! # Property C39: the time zone of a `Location`; `Location.get_airmass` -/

noncomputable section
open scoped Classical
namespace Pvlib.Props.Location
open Fl Pvlib.Location

/-- The UTC offset in hours of the fixed-offset zones of the IANA database (`Etc/GMT+k` is *behind* UTC:
offset `-k`), which exist for offsets -12 … +14. -/
def etcOffset : List (String × ℤ) :=
  [("Etc/GMT+12", -12), ("Etc/GMT+11", -11), ("Etc/GMT+10", -10), ("Etc/GMT+9", -9), ("Etc/GMT+8", -8),
   ("Etc/GMT+7", -7), ("Etc/GMT+6", -6), ("Etc/GMT+5", -5), ("Etc/GMT+4", -4), ("Etc/GMT+3", -3),
   ("Etc/GMT+2", -2), ("Etc/GMT+1", -1), ("Etc/GMT+0", 0), ("Etc/GMT-1", 1), ("Etc/GMT-2", 2), ("Etc/GMT-3", 3),
   ("Etc/GMT-4", 4), ("Etc/GMT-5", 5), ("Etc/GMT-6", 6), ("Etc/GMT-7", 7), ("Etc/GMT-8", 8), ("Etc/GMT-9", 9),
   ("Etc/GMT-10", 10), ("Etc/GMT-11", 11), ("Etc/GMT-12", 12), ("Etc/GMT-13", 13), ("Etc/GMT-14", 14)]

/-- A time-zone database that contains the IANA fixed-offset zones. -/
def HasEtc (db : String → Prop) : Prop := ∀ p ∈ etcOffset, db p.1

private theorem key_offset (h : ℤ) (h1 : -12 ≤ h) (h2 : h ≤ 14) :
    ("Etc/GMT" ++ fmtPlusD (-h), h) ∈ etcOffset := by
  interval_cases h <;> decide

/-- **C39**: an integer offset of `h` hours (any offset that exists, -12 … 14) is stored as the IANA zone
whose UTC offset is `h` hours, and reads back as its name. -/
theorem setTz_int (db : String → Prop) (hdb : HasEtc db) (state : Option String) (h : ℤ) (h1 : -12 ≤ h)
    (h2 : h ≤ 14) :
    ∃ name, setTz db (.int h) state = (some name, .ok ()) ∧ (name, h) ∈ etcOffset ∧
      getTz (setTz db (.int h) state).1 = .ok name := by
  have hk := key_offset h h1 h2
  have : db ("Etc/GMT" ++ fmtPlusD (-h)) := hdb _ hk
  refine ⟨_, ?_, hk, ?_⟩ <;> simp [setTz, this, getTz]

example := setTz_int (fun s => s ∈ etcOffset.map Prod.fst) (fun p hp => List.mem_map_of_mem hp) (some "UTC") (-7) (by norm_num)
  (by norm_num)

/-- **C39**: a whole float behaves exactly as the integer it equals … -/
theorem setTz_float_whole (db : String → Prop) (state : Option String) (h : ℤ) :
    setTz db (.float (fin h)) state = setTz db (.int h) state := by
  have : ¬ notWhole (fin (h : ℝ)) := by simp [notWhole, Fl.mod]
  simp [setTz, this, intOfWhole]

/-- … and every other float (fractional, NaN, infinite) is a TypeError. -/
theorem setTz_float_bad (db : String → Prop) (state : Option String) (x : Fl) (hx : ∀ n : ℤ, x ≠ fin n) :
    setTz db (.float x) state = (state, .error .typeError) := by
  have : notWhole x := by
    unfold notWhole
    cases x with
    | fin r =>
      simp only [Fl.mod, one_eq, zero_eq]
      intro h
      simp only [one_ne_zero, if_false, eqv_fin, div_one, one_mul] at h
      exact hx ⌊r⌋ (by rw [fin_inj]; linarith)
    | _ => simp [Fl.mod]
  simp [setTz, this]

/-- **C39**: unsupported types are a TypeError. -/
theorem setTz_other (db : String → Prop) (state : Option String) :
    setTz db .other state = (state, .error .typeError) := rfl

/-- **C39**: strings and tzinfo objects are stored under their own name when the database knows it, otherwise
KeyError (`ZoneInfoNotFoundError`). -/
theorem setTz_name (db : String → Prop) (state : Option String) (s : String) :
    (db s → setTz db (.str s) state = (some s, .ok ()) ∧ setTz db (.tzinfo s) state = (some s, .ok ())) ∧
    (¬ db s → setTz db (.str s) state = (state, .error (.keyError s)) ∧
      setTz db (.tzinfo s) state = (state, .error (.keyError s))) := by
  constructor <;> intro h <;> simp [setTz, h]

/-- **C39** (atomic): a failing assignment leaves the time zone unchanged; a successful one stores a zone of the
database. -/
theorem setTz_atomic (db : String → Prop) (tz : TzArg) (state : Option String) :
    (∀ e, (setTz db tz state).2 = .error e → (setTz db tz state).1 = state) ∧
    ((setTz db tz state).2 = .ok () → ∃ k, (setTz db tz state).1 = some k ∧ db k) := by
  cases tz with
  | other => simp [setTz]
  | str s => by_cases h : db s <;> simp [setTz, h]
  | tzinfo s => by_cases h : db s <;> simp [setTz, h]
  | int n => by_cases h : db ("Etc/GMT" ++ fmtPlusD (-n)) <;> simp [setTz, h]
  | float x =>
    by_cases hw : notWhole x
    · simp [setTz, hw]
    · by_cases h : db ("Etc/GMT" ++ fmtPlusD (-(intOfWhole x))) <;> simp [setTz, hw, h]

/-- The state after a sequence of assignments (each exception is caught by the caller). -/
def run (db : String → Prop) (ops : List TzArg) (state : Option String) : Option String :=
  ops.foldl (fun s op => (setTz db op s).1) state

/-- **C39** (histories): after any sequence of assignments — successful or not — on a Location whose zone is in
the database, the zone is still in the database, and assigning the value just read changes nothing. -/
theorem run_idempotent (db : String → Prop) (ops : List TzArg) (k0 : String) (h0 : db k0) :
    ∃ k, run db ops (some k0) = some k ∧ db k ∧ getTz (run db ops (some k0)) = .ok k ∧
      setTz db (.str k) (some k) = (some k, .ok ()) ∧ run db (ops ++ [.str k]) (some k0) = some k := by
  have inv : ∀ (ops : List TzArg) (k0 : String), db k0 → ∃ k, run db ops (some k0) = some k ∧ db k := by
    intro ops
    induction ops with
    | nil => intro k0 h0; exact ⟨k0, rfl, h0⟩
    | cons op ops ih =>
      intro k0 h0
      obtain ⟨a1, a2⟩ := setTz_atomic db op (some k0)
      cases hr : (setTz db op (some k0)).2 with
      | error e =>
        obtain ⟨k, hk⟩ := ih k0 h0
        refine ⟨k, ?_, hk.2⟩
        simp only [run, List.foldl_cons]
        rw [a1 e hr]; exact hk.1
      | ok u =>
        obtain ⟨k1, hk1, hdb⟩ := a2 hr
        obtain ⟨k, hk⟩ := ih k1 hdb
        refine ⟨k, ?_, hk.2⟩
        simp only [run, List.foldl_cons]
        rw [hk1]; exact hk.1
  obtain ⟨k, hk, hdb⟩ := inv ops k0 h0
  refine ⟨k, hk, hdb, by rw [hk]; rfl, by simp [setTz, hdb], ?_⟩
  have : run db (ops ++ [.str k]) (some k0) = (setTz db (.str k) (run db ops (some k0))).1 := by
    simp [run, List.foldl_append]
  rw [this]
  simp [setTz, hdb]

example := run_idempotent (fun s => s ∈ "UTC" :: etcOffset.map Prod.fst) [.int 3, .other, .str "nonsense"] "UTC" (by decide)

/-- **C39** (histories): the zone read after a history is the one stored by the last successful assignment. -/
theorem run_last (db : String → Prop) (ops rest : List TzArg) (op : TzArg) (s0 : Option String) (k : String)
    (hok : setTz db op (run db ops s0) = (some k, .ok ()))
    (hbad : ∀ r ∈ rest, ∃ e, ∀ s, (setTz db r s).2 = .error e) :
    getTz (run db (ops ++ op :: rest) s0) = .ok k := by
  have hrest : ∀ (rest : List TzArg) (s : Option String), (∀ r ∈ rest, ∃ e, ∀ s, (setTz db r s).2 = .error e) →
      run db rest s = s := by
    intro rest
    induction rest with
    | nil => intro s _; rfl
    | cons r rest ih =>
      intro s h
      obtain ⟨e, he⟩ := h r (by simp)
      simp only [run, List.foldl_cons]
      rw [(setTz_atomic db r s).1 e (he s)]
      exact ih s fun r hr => h r (by simp [hr])
  have e1 : run db (ops ++ op :: rest) s0 = run db rest (setTz db op (run db ops s0)).1 := by
    simp [run, List.foldl_append]
  rw [e1, hok, hrest rest _ hbad]
  rfl

example : getTz (run (fun s => s = "UTC") ([.other] ++ .str "UTC" :: [.other, .str "x"]) none) = .ok "UTC" :=
  run_last _ [.other] [.other, .str "x"] (.str "UTC") none "UTC" (by simp [setTz])
    (by
      intro r hr
      simp only [List.mem_cons, List.not_mem_nil, or_false] at hr
      obtain rfl | rfl := hr
      · exact ⟨.typeError, fun s => rfl⟩
      · exact ⟨.keyError "x", fun s => by simp [setTz]⟩)

example : getTz (run (fun s => s ∈ etcOffset.map Prod.fst) [.str "nonsense", .float (fin 2.5)] (some "Etc/GMT+7"))
    = .ok "Etc/GMT+7" := by
  have h1 : "nonsense" ∉ etcOffset.map Prod.fst := by decide
  have h2 := setTz_float_bad (fun s => s ∈ etcOffset.map Prod.fst) (some "Etc/GMT+7") (fin 2.5) (by
    intro n h
    rw [fin_inj] at h
    have h5 : (5 : ℝ) = ((2 * n : ℤ) : ℝ) := by push_cast; norm_num at h; linarith
    have : (5 : ℤ) = 2 * n := by exact_mod_cast h5
    omega)
  simp only [run, List.foldl_cons, List.foldl_nil]
  rw [((setTz_name (fun s => s ∈ etcOffset.map Prod.fst) (some "Etc/GMT+7") "nonsense").2 h1).1]
  simp only
  rw [h2]
  rfl

end Pvlib.Props.Location
end
