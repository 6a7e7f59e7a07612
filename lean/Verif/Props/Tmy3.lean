import Verif.Model.IoIndex
import Mathlib.Tactic.Ring

/-! # Property C156: the time index of TMY3 files -/

namespace Pvlib.Props.Tmy3
open Pvlib Pvlib.Calendar Pvlib.IoIndex

/-! ### Specification -/

/-- A row that occurs in TMY3 files: an existing date and a time of day from 00:00 to 24:00. -/
def RowOk (r : Tmy3Row) : Prop := (⟨r.year, r.month, r.day⟩ : Date).Valid ∧ r.minute ≤ 59 ∧ (r.hour ≤ 23 ∨ (r.hour = 24 ∧ r.minute = 0))

/-- The moment the row names, in minutes since the beginning of day 0: 24:00 is the end of the day. -/
def moment (r : Tmy3Row) : ℕ := 1440 * (⟨r.year, r.month, r.day⟩ : Date).ordinal + 60 * r.hour + r.minute

/-- The moment the row names lies on 29 February. -/
def OnLeapDay (r : Tmy3Row) : Prop :=
  (r.month = 2 ∧ r.day = 29 ∧ r.hour ≤ 23) ∨ (r.month = 2 ∧ r.day = 28 ∧ r.hour = 24 ∧ leap r.year = true)

instance (r : Tmy3Row) : Decidable (OnLeapDay r) := by unfold OnLeapDay; infer_instance

/-- A typical year: 8760 rows, hour after hour of a year of 365 days, the hours of a day numbered 1:00 to 24:00; every row may come
from another year, as the months of a TMY do. -/
def Typical (rows : List Tmy3Row) : Prop :=
  rows.length = 8760 ∧ ∀ i r, rows[i]? = some r →
    1 ≤ r.year ∧ (⟨1, r.month, r.day⟩ : Date).Valid ∧ (⟨1, r.month, r.day⟩ : Date).doy = i / 24 + 1 ∧ r.hour = i % 24 + 1 ∧ r.minute = 0

/-! ### The model -/

theorem each_ok {α β : Type} {f : α → Except PyErr β} {g : α → β} {l : List α} (h : ∀ a ∈ l, f a = .ok (g a)) :
    each f l = .ok (l.map g) := by
  induction l with
  | nil => rfl
  | cons a as ih =>
    rw [each, h a (by simp), ih (fun b hb => h b (by simp [hb]))]
    rfl

/-- The date a row is filed under. -/
private def filed (r : Tmy3Row) : Date :=
  let d : Date := ⟨r.year, r.month, r.day⟩
  let d := if r.hour = 24 then d.next else d
  if d.month = 2 ∧ d.day = 29 then d.next else d

private theorem tmy3Date_ok {r : Tmy3Row} (h : RowOk r) : tmy3Date r = .ok (filed r) := by
  unfold tmy3Date ofYMD
  rw [if_pos h.1]
  rfl

private theorem dim_feb (y : ℕ) : daysInMonth y 2 = if leap y = true then 29 else 28 := rfl

private theorem next_leap {d : Date} (hm : d.month = 2) (hd : d.day = 29) : d.next = ⟨d.year, 3, 1⟩ := by
  obtain ⟨y, m, dd⟩ := d
  dsimp only at hm hd
  subst hm hd
  have : ¬ (29 < daysInMonth y 2) := by rw [dim_feb]; split <;> omega
  unfold Date.next
  dsimp only
  rw [if_neg this]
  rfl

private theorem leap_only {d : Date} (h : d.Valid) (hm : d.month = 2) (hd : d.day = 29) : leap d.year = true := by
  obtain ⟨-, -, -, -, h4⟩ := h
  rw [hm, hd] at h4
  rw [dim_feb] at h4
  by_contra hc
  rw [if_neg hc] at h4
  omega

private theorem filed_valid {r : Tmy3Row} (h : RowOk r) : (filed r).Valid ∧ ¬ ((filed r).month = 2 ∧ (filed r).day = 29) := by
  unfold filed
  dsimp only
  have hd : ∀ d : Date, d.Valid → (if d.month = 2 ∧ d.day = 29 then d.next else d).Valid ∧
      ¬ ((if d.month = 2 ∧ d.day = 29 then d.next else d).month = 2 ∧ (if d.month = 2 ∧ d.day = 29 then d.next else d).day = 29) := by
    intro d hv
    by_cases hc : d.month = 2 ∧ d.day = 29
    · rw [if_pos hc]
      refine ⟨next_valid hv, ?_⟩
      rw [next_leap hc.1 hc.2]
      simp
    · rw [if_neg hc]; exact ⟨hv, hc⟩
  apply hd
  split
  · exact next_valid h.1
  · exact h.1

private theorem next_feb29 {d : Date} (h : d.Valid) : (d.next.month = 2 ∧ d.next.day = 29) ↔ (d.month = 2 ∧ d.day = 28 ∧ leap d.year = true) := by
  obtain ⟨y, m, dd⟩ := d
  obtain ⟨-, h1, h2, h3, h4⟩ := h
  dsimp only at *
  unfold Date.next
  dsimp only
  split
  · rename_i hlt
    dsimp only
    constructor
    · rintro ⟨e1, e2⟩
      refine ⟨e1, by omega, ?_⟩
      subst e1
      rw [dim_feb] at hlt
      by_contra hc
      rw [if_neg hc] at hlt
      omega
    · rintro ⟨e1, e2, -⟩
      exact ⟨e1, by omega⟩
  · rename_i hlt
    split
    · dsimp only
      constructor
      · rintro ⟨-, e2⟩; omega
      · rintro ⟨e1, e2, e3⟩
        subst e1
        rw [dim_feb] at hlt
        rw [if_pos e3] at hlt
        omega
    · dsimp only
      constructor
      · rintro ⟨e1, -⟩; omega
      · rintro ⟨e1, -⟩; omega

private theorem filed_stamp {r : Tmy3Row} (h : RowOk r) :
    stamp (filed r).ordinal (60 * (r.hour % 24) + r.minute) = moment r + (if OnLeapDay r then 1440 else 0) := by
  obtain ⟨hv, hmin, hh⟩ := h
  have hv1 := hv
  set d : Date := ⟨r.year, r.month, r.day⟩ with hd
  have hstep : ∀ e : Date, e.Valid → (if e.month = 2 ∧ e.day = 29 then e.next else e).ordinal =
      e.ordinal + (if e.month = 2 ∧ e.day = 29 then 1 else 0) := by
    intro e he
    split
    · exact next_ordinal he
    · rfl
  have hf : filed r = (let e := if r.hour = 24 then d.next else d; if e.month = 2 ∧ e.day = 29 then e.next else e) := rfl
  unfold stamp moment
  rw [hf, ← hd]
  dsimp only
  rcases hh with hh | ⟨hh, hm0⟩
  · have h24 : r.hour ≠ 24 := by omega
    rw [if_neg h24, hstep d hv, Nat.mod_eq_of_lt (by omega)]
    by_cases hl : d.month = 2 ∧ d.day = 29
    · have : OnLeapDay r := Or.inl ⟨hl.1, hl.2, hh⟩
      rw [if_pos hl, if_pos this]; ring
    · have : ¬ OnLeapDay r := by
        rintro (⟨a, b, -⟩ | ⟨-, -, c, -⟩)
        · exact hl ⟨a, b⟩
        · omega
      rw [if_neg hl, if_neg this]; ring
  · rw [if_pos hh, hstep _ (next_valid hv), next_ordinal hv, hh]
    have key := next_feb29 hv
    by_cases hl : d.next.month = 2 ∧ d.next.day = 29
    · have : OnLeapDay r := by
        obtain ⟨a, b, c⟩ := key.mp hl
        exact Or.inr ⟨a, b, hh, c⟩
      rw [if_pos hl, if_pos this, Nat.mod_self]; ring
    · have : ¬ OnLeapDay r := by
        rintro (⟨-, -, c⟩ | ⟨a, b, -, c⟩)
        · omega
        · exact hl (key.mpr ⟨a, b, c⟩)
      rw [if_neg hl, if_neg this, Nat.mod_self]; ring

private theorem zipWith_map {α β γ : Type} (f : β → α → γ) (g : α → β) (l : List α) :
    List.zipWith f (l.map g) l = l.map fun a => f (g a) a := by
  induction l with
  | nil => rfl
  | cons a as ih => simp [ih]

/-- Without `coerce_year`: every row gets the moment it names, 24:00 being 00:00 of the next day (also at the end of a month and of a
year); moments on 29 February are moved to 1 March. -/
theorem naive {rows : List Tmy3Row} (h : ∀ r ∈ rows, RowOk r) :
    tmy3Index rows none = .ok (rows.map fun r => moment r + if OnLeapDay r then 1440 else 0) := by
  unfold tmy3Index tmy3Dates
  rw [each_ok (fun r hr => tmy3Date_ok (h r hr))]
  dsimp only
  rw [zipWith_map]
  congr 1
  apply List.map_congr_left
  intro r hr
  exact filed_stamp (h r hr)

example := naive (rows := [⟨2000, 2, 28, 24, 0⟩, ⟨1988, 3, 1, 1, 0⟩]) (by simp only [RowOk]; decide)

private theorem valid_other {d : Date} (h : d.Valid) (hl : ¬ (d.month = 2 ∧ d.day = 29)) {c : ℕ} (hc : 1 ≤ c) :
    (⟨c, d.month, d.day⟩ : Date).Valid := by
  obtain ⟨y, m, dd⟩ := d
  obtain ⟨h0, h1, h2, h3, h4⟩ := h
  dsimp only at *
  refine ⟨hc, h1, h2, h3, ?_⟩
  dsimp only
  interval_cases m <;> simp only [daysInMonth] at h4 ⊢ <;> first | omega | skip
  split at h4 <;> split <;> omega

private theorem replaceYear_ok {d : Date} (h : d.Valid) (hl : ¬ (d.month = 2 ∧ d.day = 29)) {c : ℕ} (hc : 1 ≤ c) :
    replaceYear c d = .ok ⟨c, d.month, d.day⟩ := by
  unfold replaceYear ofYMD
  rw [if_pos (valid_other h hl hc)]

private theorem replaceLast_ok {c : ℕ} (ds : List Date) (d d' : Date) (h : replaceYear c d = .ok d') :
    replaceLast c (ds ++ [d]) = .ok (ds ++ [d']) := by
  induction ds with
  | nil => simp [replaceLast, h]
  | cons a as ih =>
    have : ∃ b bs, as ++ [d] = b :: bs := by cases as <;> simp
    obtain ⟨b, bs, hb⟩ := this
    rw [List.cons_append, hb, replaceLast, ← hb, ih]
    · rfl
    · intro hh; cases hh

/-- The moment of a row with its year replaced. -/
private def coercedStamp (c : ℕ) (r : Tmy3Row) : ℕ :=
  stamp (⟨c, (filed r).month, (filed r).day⟩ : Date).ordinal (60 * (r.hour % 24) + r.minute)

private theorem coerced_eq {rows : List Tmy3Row} {last : Tmy3Row} (h : ∀ r ∈ rows, RowOk r) (hl : RowOk last) {c : ℕ} (hc : 1 ≤ c) :
    tmy3Index (rows ++ [last]) (some c) = .ok (rows.map (coercedStamp c) ++ [coercedStamp (c + 1) last]) := by
  have hall : ∀ r ∈ rows ++ [last], RowOk r := by
    intro r hr
    rcases List.mem_append.mp hr with hr | hr
    · exact h r hr
    · rw [List.mem_singleton] at hr; rw [hr]; exact hl
  unfold tmy3Index tmy3Dates
  rw [each_ok (fun r hr => tmy3Date_ok (hall r hr))]
  dsimp only
  have h2 : ∀ d ∈ (rows ++ [last]).map filed, replaceYear c d = .ok ((fun d : Date => ⟨c, d.month, d.day⟩) d) := by
    intro d hd
    obtain ⟨r, hr, rfl⟩ := List.mem_map.mp hd
    exact replaceYear_ok (filed_valid (hall r hr)).1 (filed_valid (hall r hr)).2 hc
  rw [each_ok h2]
  dsimp only
  rw [List.map_append, List.map_append, List.map_cons, List.map_nil, List.map_cons, List.map_nil]
  have hlast : replaceYear (c + 1) (⟨c, (filed last).month, (filed last).day⟩ : Date) = .ok ⟨c + 1, (filed last).month, (filed last).day⟩ :=
    replaceYear_ok (valid_other (filed_valid hl).1 (filed_valid hl).2 hc) (filed_valid hl).2 (by omega)
  rw [replaceLast_ok _ _ _ hlast]
  dsimp only
  rw [List.zipWith_append (by simp), List.map_map]
  have : List.zipWith (fun (d : Date) (r : Tmy3Row) => stamp d.ordinal (60 * (r.hour % 24) + r.minute))
      (List.map ((fun d : Date => (⟨c, d.month, d.day⟩ : Date)) ∘ filed) rows) rows = rows.map (coercedStamp c) := by
    rw [zipWith_map]
    rfl
  rw [this]
  rfl

/-- With `coerce_year`, valid rows never raise, whatever their years; the moments are those without `coerce_year` with the year
replaced, and the last row is in the following year. -/
theorem coerced {rows : List Tmy3Row} {last : Tmy3Row} (h : ∀ r ∈ rows, RowOk r) (hl : RowOk last) {c : ℕ} (hc : 1 ≤ c) :
    ∃ dates : Tmy3Row → Date, (∀ r ∈ rows ++ [last], (dates r).Valid ∧
        1440 * (dates r).ordinal + (60 * (r.hour % 24) + r.minute) = moment r + if OnLeapDay r then 1440 else 0) ∧
      tmy3Index (rows ++ [last]) (some c) =
        .ok ((rows.map fun r => 1440 * (⟨c, (dates r).month, (dates r).day⟩ : Date).ordinal + (60 * (r.hour % 24) + r.minute)) ++
          [1440 * (⟨c + 1, (dates last).month, (dates last).day⟩ : Date).ordinal + (60 * (last.hour % 24) + last.minute)]) := by
  have hall : ∀ r ∈ rows ++ [last], RowOk r := by
    intro r hr
    rcases List.mem_append.mp hr with hr | hr
    · exact h r hr
    · rw [List.mem_singleton] at hr; rw [hr]; exact hl
  exact ⟨filed, fun r hr => ⟨(filed_valid (hall r hr)).1, filed_stamp (hall r hr)⟩, coerced_eq h hl hc⟩

example := coerced (rows := [⟨2000, 2, 28, 24, 0⟩, ⟨1988, 3, 1, 1, 0⟩]) (last := ⟨1990, 12, 31, 24, 0⟩) (by simp only [RowOk]; decide) (by simp only [RowOk]; decide) (c := 2015) (by norm_num)

/-- Filing dates differ from the dates in the file only at midnight and on 29 February. -/
private theorem filed_typical {r : Tmy3Row} {i : ℕ} (hi : i < 8760)
    (h : 1 ≤ r.year ∧ (⟨1, r.month, r.day⟩ : Date).Valid ∧ (⟨1, r.month, r.day⟩ : Date).doy = i / 24 + 1 ∧ r.hour = i % 24 + 1 ∧ r.minute = 0) :
    RowOk r ∧ (i + 1 < 8760 → (⟨1, (filed r).month, (filed r).day⟩ : Date).doy = (i + 1) / 24 + 1) ∧
      (i + 1 = 8760 → (filed r).month = 1 ∧ (filed r).day = 1) ∧ (⟨1, (filed r).month, (filed r).day⟩ : Date).Valid := by
  obtain ⟨hy, hv, hdoy, hh, hm⟩ := h
  have hnl1 : leap 1 = false := by decide
  have hnf : ¬ (r.month = 2 ∧ r.day = 29) := by
    rintro ⟨a, b⟩
    have := leap_only hv a b
    rw [hnl1] at this; exact absurd this (by decide)
  have hv' : (⟨r.year, r.month, r.day⟩ : Date).Valid := valid_other hv hnf hy
  have hok : RowOk r := ⟨hv', by omega, by omega⟩
  have hfv := filed_valid hok
  refine ⟨hok, ?_⟩
  have hlast := valid_other hfv.1 hfv.2 (c := 1) le_rfl
  by_cases h24 : r.hour = 24
  · -- the next day
    have hn : (⟨1, (filed r).month, (filed r).day⟩ : Date).month = (⟨1, r.month, r.day⟩ : Date).next.month ∧
        (filed r).day = (⟨1, r.month, r.day⟩ : Date).next.day := by
      obtain ⟨-, h1, h2, h3, h4⟩ := hv
      have h4' := hv'.2.2.2.2
      dsimp only at h1 h2 h3 h4 h4'
      unfold filed
      dsimp only
      rw [if_pos h24]
      by_cases hl : (⟨r.year, r.month, r.day⟩ : Date).next.month = 2 ∧ (⟨r.year, r.month, r.day⟩ : Date).next.day = 29
      · rw [if_pos hl]
        obtain ⟨a, b, c⟩ := (next_feb29 hv').mp hl
        dsimp only at a b c
        rw [next_leap hl.1 hl.2, a, b]
        exact ⟨rfl, rfl⟩
      · rw [if_neg hl]
        have hl' := fun x => hl ((next_feb29 hv').mpr x)
        dsimp only at hl'
        have hdim : daysInMonth r.year r.month = daysInMonth 1 r.month ∨ (r.month = 2 ∧ leap r.year = true) := by
          by_cases hm2 : r.month = 2
          · by_cases hly : leap r.year = true
            · exact Or.inr ⟨hm2, hly⟩
            · left; rw [hm2, dim_feb, dim_feb, if_neg hly, hnl1]; rfl
          · left
            generalize r.month = m at *
            interval_cases m <;> first | rfl | (exact absurd rfl hm2)
        rcases hdim with hdim | ⟨hm2, hly⟩
        · unfold Date.next
          dsimp only
          rw [hdim]
          split
          · exact ⟨rfl, rfl⟩
          · split <;> exact ⟨rfl, rfl⟩
        · rw [hm2] at h4
          have e2 : daysInMonth 1 2 = 28 := by decide
          have e3 : daysInMonth r.year 2 = 29 := by rw [dim_feb, if_pos hly]
          rw [e2] at h4
          have hd : r.day ≠ 28 := fun e => hl' ⟨hm2, e, hly⟩
          unfold Date.next
          dsimp only
          rw [hm2, e2, e3, if_pos (by omega), if_pos (by omega)]
          exact ⟨rfl, rfl⟩
    have hno := next_ordinal hv
    have hnv := next_valid hv
    refine ⟨fun hlt => ?_, fun heq => ?_, hlast⟩
    · have hyr : (⟨1, r.month, r.day⟩ : Date).next.year = 1 := by
        unfold Date.next
        dsimp only
        split
        · rfl
        · rename_i hc
          split
          · rfl
          · rename_i hc2
            exfalso
            obtain ⟨-, h1, h2, h3, h4⟩ := hv
            dsimp only at h1 h2 h3 h4
            have hm12 : r.month = 12 := by omega
            rw [hm12] at hc hdoy
            unfold Date.doy at hdoy
            dsimp only at hdoy
            have := daysBefore_december 1
            have : yearDays 1 = 365 := by decide
            omega
      have he : (⟨1, (filed r).month, (filed r).day⟩ : Date) = (⟨1, r.month, r.day⟩ : Date).next := by
        generalize (⟨1, r.month, r.day⟩ : Date).next = e at *
        obtain ⟨a, b, c⟩ := e
        dsimp only at hn hyr ⊢
        rw [hn.1, hn.2, hyr]
      rw [he]
      unfold Date.ordinal at hno
      rw [hyr] at hno
      dsimp only at hno
      omega
    · obtain ⟨-, h1, h2, h3, h4⟩ := hv
      dsimp only at h1 h2 h3 h4
      have hm12 : r.month = 12 := by
        by_contra hc
        have := daysBefore_mono (y := 1) h1 (le_refl 12) (by omega)
        have e334 : daysBefore 1 12 = 334 := by decide
        unfold Date.doy at hdoy
        dsimp only at hdoy
        omega
      have hd31 : r.day = 31 := by
        rw [hm12] at hdoy
        unfold Date.doy at hdoy
        dsimp only at hdoy
        have e334 : daysBefore 1 12 = 334 := by decide
        omega
      rw [hm12, hd31] at hn
      exact hn
  · have hfr : filed r = ⟨r.year, r.month, r.day⟩ := by
      unfold filed
      dsimp only
      rw [if_neg h24, if_neg hnf]
    rw [hfr]
    dsimp only
    refine ⟨fun _ => ?_, fun heq => ?_, hv⟩
    · rw [hdoy]; omega
    · omega

private theorem ordinal_other {d : Date} (h : d.Valid) (hy : d.year = 1) {c : ℕ} :
    (⟨c, d.month, d.day⟩ : Date).ordinal = yearStart c + d.doy + (if leap c = true ∧ 60 ≤ d.doy then 1 else 0) := by
  obtain ⟨y, m, dd⟩ := d
  dsimp only at hy
  subst hy
  obtain ⟨-, h1, h2, h3, h4⟩ := h
  have hnl1 : leap 1 = false := by decide
  unfold Date.ordinal Date.doy
  dsimp only at *
  cases hlc : leap c <;>
  interval_cases m <;> simp only [daysBefore, daysInMonth, hnl1, hlc, Bool.false_eq_true, if_false, if_true, false_and, true_and] at h4 ⊢ <;> (try split_ifs) <;> omega

/-- A typical year coerced to year `c`: row `i` (from 0) is `i + 1` hours after the beginning of 1 January of `c`; in a leap year the
24 hours of 29 February are skipped.  The last row is 1 January of the following year. -/
theorem typical_year {rows : List Tmy3Row} (h : Typical rows) {c : ℕ} (hc : 1 ≤ c) :
    ∃ index, tmy3Index rows (some c) = .ok index ∧ index.length = 8760 ∧
      ∀ i, i < 8760 → index[i]? = some (1440 * (yearStart c + 1) + 60 * (i + 1) + if leap c = true ∧ 1416 ≤ i + 1 then 1440 else 0) := by
  obtain ⟨hlen, hrow⟩ := h
  obtain ⟨rs, last, rfl⟩ : ∃ rs last, rows = rs ++ [last] := by
    refine ⟨rows.dropLast, rows.getLast (by intro e; rw [e] at hlen; simp at hlen), (List.dropLast_append_getLast _).symm⟩
  have hlen' : rs.length = 8759 := by simpa using hlen
  have hok : ∀ r ∈ rs ++ [last], RowOk r := by
    intro r hr
    obtain ⟨i, hi⟩ := List.mem_iff_getElem?.mp hr
    have hi' : i < 8760 := by rw [← hlen]; exact (List.getElem?_eq_some_iff.mp hi).1
    exact (filed_typical hi' (hrow i r hi)).1
  refine ⟨_, coerced_eq (fun r hr => hok r (by simp [hr])) (hok last (by simp)) hc, by simp [hlen'], ?_⟩
  intro i hi
  by_cases hil : i < 8759
  · rw [List.getElem?_append_left (by simpa [hlen'] using hil), List.getElem?_map]
    have hr : rs[i]? = some (rs[i]'(by omega)) := List.getElem?_eq_getElem (by omega)
    rw [hr, Option.map_some]
    have hr' : (rs ++ [last])[i]? = some (rs[i]'(by omega)) := by rw [List.getElem?_append_left (by omega)]; exact hr
    generalize rs[i]'(by omega) = r at *
    have hspec := hrow i r hr'
    obtain ⟨-, hd, -, hv⟩ := filed_typical hi hspec
    have hd' := hd (by omega)
    obtain ⟨-, -, -, hh, hm⟩ := hspec
    unfold coercedStamp stamp
    rw [ordinal_other (d := ⟨1, (filed r).month, (filed r).day⟩) hv rfl, hd', hh, hm]
    congr 1
    cases leap c
    · simp; omega
    · simp only [true_and]
      split_ifs <;> omega
  · have hie : i = 8759 := by omega
    subst hie
    rw [List.getElem?_append_right (by simp [hlen'])]
    simp only [List.length_map, hlen', Nat.sub_self, List.getElem?_cons_zero]
    have hr' : (rs ++ [last])[8759]? = some last := by rw [List.getElem?_append_right (by omega)]; simp [hlen']
    have hspec := hrow 8759 last hr'
    obtain ⟨-, -, hd, -⟩ := filed_typical (by omega) hspec
    obtain ⟨hm, hday⟩ := hd rfl
    obtain ⟨-, -, -, hh, hmin⟩ := hspec
    unfold coercedStamp stamp
    rw [hm, hday, hh, hmin]
    unfold Date.ordinal Date.doy
    dsimp only
    rw [yearStart_succ hc]
    unfold yearDays daysBefore
    congr 1
    cases leap c <;> simp <;> omega

/-- Hence the index of a typical year is strictly increasing, for any years of its months and any `coerce_year`. -/
theorem typical_increasing {rows : List Tmy3Row} (h : Typical rows) {c : ℕ} (hc : 1 ≤ c) :
    ∃ index, tmy3Index rows (some c) = .ok index ∧ index.Pairwise (· < ·) := by
  obtain ⟨index, e, hlen, hi⟩ := typical_year h hc
  refine ⟨index, e, ?_⟩
  rw [List.pairwise_iff_getElem]
  intro i j hi' hj' hij
  have h1 := hi i (by omega)
  have h2 := hi j (by omega)
  rw [List.getElem?_eq_getElem hi'] at h1
  rw [List.getElem?_eq_getElem hj'] at h2
  rw [Option.some.inj h1, Option.some.inj h2]
  cases leap c <;> simp only [Bool.false_eq_true, false_and, true_and, if_false] <;> (try split_ifs) <;> omega

/-- `coerce_year` presumes that the last row is midnight of the new year: if the file counts hours from 0:00 to 23:00, the last row
(31 December, 23:00) is moved to the end of the following year. -/
theorem last_row_year {rows : List Tmy3Row} {year : ℕ} (h : ∀ r ∈ rows, RowOk r) (hy : 1 ≤ year) {c : ℕ} (hc : 1 ≤ c) :
    ∃ index, tmy3Index (rows ++ [⟨year, 12, 31, 23, 0⟩]) (some c) = .ok index ∧
      index.getLast? = some (1440 * (yearStart (c + 1) + yearDays (c + 1)) + 60 * 23) := by
  have hv : (⟨year, 12, 31⟩ : Date).Valid := ⟨hy, by show 1 ≤ 12; omega, le_refl 12, by show 1 ≤ 31; omega, le_refl 31⟩
  refine ⟨_, coerced_eq h ⟨hv, Nat.zero_le _, Or.inl (le_refl 23)⟩ hc, ?_⟩
  rw [List.getLast?_concat]
  congr 1
  unfold coercedStamp stamp filed
  dsimp only
  simp only [Nat.reduceEqDiff, if_false, false_and]
  unfold Date.ordinal Date.doy yearDays daysBefore
  dsimp only
  cases leap (c + 1) <;> simp <;> omega

example := last_row_year (rows := [⟨2000, 2, 28, 24, 0⟩, ⟨1988, 3, 1, 1, 0⟩]) (year := 1990) (by simp only [RowOk]; decide) (by norm_num) (c := 2015) (by norm_num)

/-- A date that does not exist raises ValueError. -/
theorem bad_date {rows rest : List Tmy3Row} {r : Tmy3Row} (h : ∀ r ∈ rows, RowOk r) (hr : ¬ (⟨r.year, r.month, r.day⟩ : Date).Valid)
    (c : Option ℕ) : tmy3Index (rows ++ r :: rest) c = .error .valueError := by
  have : each tmy3Date (rows ++ r :: rest) = .error .valueError := by
    induction rows with
    | nil => simp [each, tmy3Date, ofYMD, hr]
    | cons a as ih => rw [List.cons_append, each, tmy3Date_ok (h a (by simp)), ih (fun b hb => h b (by simp [hb]))]
  unfold tmy3Index tmy3Dates
  rw [this]

/-! ### Witnesses -/

/-- A typical year exists: month and day of every hour, the months from different years. -/
private def monthOf (k : ℕ) : ℕ :=
  if k ≤ 31 then 1 else if k ≤ 59 then 2 else if k ≤ 90 then 3 else if k ≤ 120 then 4 else if k ≤ 151 then 5 else
    if k ≤ 181 then 6 else if k ≤ 212 then 7 else if k ≤ 243 then 8 else if k ≤ 273 then 9 else if k ≤ 304 then 10 else
    if k ≤ 334 then 11 else 12

private theorem monthOf_ok : ∀ k < 365, (⟨1, monthOf (k + 1), k + 1 - daysBefore 1 (monthOf (k + 1))⟩ : Date).Valid ∧
    (⟨1, monthOf (k + 1), k + 1 - daysBefore 1 (monthOf (k + 1))⟩ : Date).doy = k + 1 := by decide +kernel

example : Typical ((List.range 8760).map fun i =>
    ⟨1976 + 4 * (monthOf (i / 24 + 1) % 5), monthOf (i / 24 + 1), i / 24 + 1 - daysBefore 1 (monthOf (i / 24 + 1)), i % 24 + 1, 0⟩) := by
  refine ⟨by simp, ?_⟩
  intro i r hr
  rw [List.getElem?_map] at hr
  obtain ⟨j, hj, rfl⟩ := Option.map_eq_some_iff.mp hr
  obtain ⟨hlt, hj'⟩ := List.getElem?_eq_some_iff.mp hj
  rw [List.getElem_range] at hj'
  subst hj'
  rw [List.length_range] at hlt
  obtain ⟨h1, h2⟩ := monthOf_ok (i / 24) (by omega)
  exact ⟨by dsimp only; omega, h1, h2, rfl, rfl⟩

/-- 28 February 2000, 24:00, is filed at 1 March 2000, 00:00. -/
example : tmy3Index [⟨2000, 2, 28, 24, 0⟩] none = .ok [1440 * (⟨2000, 3, 1⟩ : Date).ordinal] := by decide +kernel

end Pvlib.Props.Tmy3
