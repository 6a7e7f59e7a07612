import Verif.Props.Requests

/-! # C184–C186: requests to CAMS, PVGIS files, renamed and deprecated functions -/

noncomputable section
open scoped Classical
namespace Pvlib.Props.RequestsMore
open Fl Pvlib.Tools Pvlib.IoServices Pvlib.IoRequests Pvlib.Props.Requests

/-! ## C184: CAMS -/

/-- The names of the time steps and CAMS' names of them. -/
def steps : List (String × String) := [("1min", "PT01M"), ("15min", "PT15M"), ("1h", "PT01H"), ("1d", "P01D"), ("1M", "P01M")]

private theorem step_iff (s t : String) : PyDict.get? camsSteps s = some t ↔ (s, t) ∈ steps := by
  simp only [PyDict.get?, camsSteps, steps, List.mem_cons, List.not_mem_nil, or_false, Prod.mk.injEq]
  constructor
  · split_ifs <;> simp_all
  · rintro (⟨rfl, rfl⟩ | ⟨rfl, rfl⟩ | ⟨rfl, rfl⟩ | ⟨rfl, rfl⟩ | ⟨rfl, rfl⟩) <;> rfl

private theorem step_none (s : String) : PyDict.get? camsSteps s = none ↔ ∀ t, (s, t) ∉ steps := by
  constructor
  · intro h t ht
    rw [← step_iff, h] at ht; cases ht
  · intro h
    cases hs : PyDict.get? camsSteps s with
    | none => rfl
    | some t => exact absurd ((step_iff s t).mp hs) (h t)

/-- **C184** (refusals): an unknown time step or service raises ValueError, and no request is sent: the outcome is the same for every
service. -/
theorem cams_refused {T : Type} (service : Request → Reply (List Char)) (read : List Char → Outcome T) (str : Fl → String) (day : ℤ → String)
    (a : CamsArgs) (h : (∀ t, (a.time_step, t) ∉ steps) ∨ (a.identifier ≠ "mcclear" ∧ a.identifier ≠ "cams_radiation")) :
    getCams service read str day a = .raised .valueError := by
  have : camsQuery str day a = .error .valueError := by
    unfold camsQuery
    cases hs : PyDict.get? camsSteps a.time_step with
    | none => rfl
    | some t =>
      rcases h with h | h
      · exact absurd ((step_iff _ _).mp hs) (h t)
      · dsimp only
        rw [if_pos (by simp [h.1, h.2])]
  simp [getCams, this]

/-- **C184** (request): otherwise one request is sent, to the address given; its `DataInputs` name the coordinates, the altitude (or -999,
which means unknown), the first and last day (the calendar days of the times given, in their own time zones), the time reference, CAMS' name of
the time step, the mail address with every `@` escaped twice, and `verbose=true` only if it was asked for with one-minute data in universal
time (a warning is given exactly if it was asked for and dropped). -/
theorem cams_request (str : Fl → String) (day : ℤ → String) (a : CamsArgs) (t : String) (ht : (a.time_step, t) ∈ steps)
    (hi : a.identifier = "mcclear" ∨ a.identifier = "cams_radiation") :
    ∃ q warns, camsQuery str day a = .ok (q, warns) ∧ q.headers = [] ∧
      q.url = "https://" ++ a.url ++ "/service/wps?DataInputs=" ++ ";".intercalate
        ["latitude=" ++ str a.latitude, "longitude=" ++ str a.longitude,
          "altitude=" ++ (match a.altitude with | none => "-999" | some h => str h),
          "date_begin=" ++ day (a.start.wall / 86400), "date_end=" ++ day (a.stop.wall / 86400), "time_ref=" ++ a.time_ref,
          "summarization=" ++ t, "username=" ++ String.ofList (escapeEmail a.email),
          "verbose=" ++ (if a.verbose = true ∧ a.time_step = "1min" ∧ a.time_ref = "UT" then "true" else "false")] ∧
      (∀ n, q.params.get? n = if n = "Service" then some (.str "WPS") else if n = "Request" then some (.str "Execute")
        else if n = "Identifier" then some (.str ("get_" ++ a.identifier)) else if n = "version" then some (.str "1.0.0")
        else if n = "RawDataOutput" then some (.str "irradiation") else none) ∧
      (warns = true ↔ a.verbose = true ∧ ¬ (a.time_step = "1min" ∧ a.time_ref = "UT")) := by
  have hs := (step_iff _ _).mpr ht
  have hl : pyLower a.identifier = a.identifier := by
    rcases hi with h | h <;> rw [h] <;> decide +kernel
  have hv : lowerBool (if (a.verbose && (a.time_step != "1min" || a.time_ref != "UT")) = true then false else a.verbose) =
      if a.verbose = true ∧ a.time_step = "1min" ∧ a.time_ref = "UT" then "true" else "false" := by
    cases a.verbose <;> by_cases h1 : a.time_step = "1min" <;> by_cases h2 : a.time_ref = "UT" <;> simp [lowerBool, h1, h2]
  have hq : ∃ url, camsQuery str day a = .ok (⟨url, [("Service", .str "WPS"), ("Request", .str "Execute"),
      ("Identifier", .str ("get_" ++ a.identifier)), ("version", .str "1.0.0"), ("RawDataOutput", .str "irradiation")], []⟩,
      a.verbose && (a.time_step != "1min" || a.time_ref != "UT")) ∧ url = "https://" ++ a.url ++ "/service/wps?DataInputs=" ++ ";".intercalate
        ["latitude=" ++ str a.latitude, "longitude=" ++ str a.longitude,
          "altitude=" ++ (match a.altitude with | none => "-999" | some h => str h),
          "date_begin=" ++ day (a.start.wall / 86400), "date_end=" ++ day (a.stop.wall / 86400), "time_ref=" ++ a.time_ref,
          "summarization=" ++ t, "username=" ++ String.ofList (escapeEmail a.email),
          "verbose=" ++ (if a.verbose = true ∧ a.time_step = "1min" ∧ a.time_ref = "UT" then "true" else "false")] := by
    unfold camsQuery
    rw [hs]
    dsimp only
    rw [if_neg (by rcases hi with h | h <;> simp [h]), hv, hl]
    refine ⟨_, rfl, ?_⟩
    simp only [List.map_cons, List.map_nil, String.append_assoc]
    rfl
  obtain ⟨url, h1, h2⟩ := hq
  refine ⟨_, _, h1, rfl, h2, ?_, ?_⟩
  · intro n
    simp only [PyDict.get?, eq_comm (b := n)]
  · cases a.verbose <;> by_cases h1 : a.time_step = "1min" <;> by_cases h2 : a.time_ref = "UT" <;> simp [h1, h2]

/-- **C184** (mail address): the escaped address has no `@`, and replacing every `%2540` of an address without percent signs by `@` gives
the address back: characters other than `@` are unchanged. -/
theorem cams_email (email : List Char) : '@' ∉ escapeEmail email ∧ (∀ c, c ∉ "@%2540".toList → (escapeEmail email).count c = email.count c) ∧
    ∀ a b, escapeEmail (a ++ '@' :: b) = escapeEmail a ++ "%2540".toList ++ escapeEmail b := by
  refine ⟨?_, ?_, ?_⟩
  · simp only [escapeEmail, List.mem_flatMap, not_exists, not_and]
    intro c _ h
    split_ifs at h with hc
    · revert h; decide
    · simp only [List.mem_singleton] at h; exact hc h.symm
  · intro c hc
    induction email with
    | nil => rfl
    | cons d email ih =>
      simp only [escapeEmail, List.flatMap_cons, List.count_append] at ih ⊢
      rw [ih]
      by_cases hd : d = '@'
      · subst hd
        have h1 : (if '@' = '@' then "%2540".toList else ['@']).count c = 0 := by
          rw [if_pos rfl, List.count_eq_zero]
          intro h; apply hc
          have : "@%2540".toList = '@' :: "%2540".toList := by decide
          rw [this]; exact List.mem_cons_of_mem _ h
        have h2 : c ≠ '@' := by
          rintro rfl; apply hc; decide
        rw [h1, List.count_cons_of_ne (Ne.symm h2), zero_add]
      · rw [if_neg hd, List.count_singleton, List.count_cons, Nat.add_comm]
  · intro a b
    simp [escapeEmail]

/-- **C184** (reply): a good reply is read; an error reply raises HTTPError if it contains an exception report, and otherwise IndexError. -/
theorem cams_reply {T : Type} (service : Request → Reply (List Char)) (read : List Char → Outcome T) (str : Fl → String) (day : ℤ → String)
    (a : CamsArgs) (q : Request) (w : Bool) (hq : camsQuery str day a = .ok (q, w)) :
    getCams service read str day a =
      if 400 ≤ (service q).status ∧ (service q).status ≤ 599 then
        (if ∃ x y, (service q).body = x ++ "ows:ExceptionText".toList ++ y then .httpError else .raised .indexError)
      else read (service q).body := by
  unfold getCams
  rw [hq]
  dsimp only
  by_cases h : 400 ≤ (service q).status ∧ (service q).status ≤ 599
  · have : (service q).ok = false := by simp [Reply.ok]; omega
    rw [if_pos h, this]
    simp only [Bool.false_eq_true, if_false]
    have he : ("ows:ExceptionText".toList <:+: (service q).body) ↔ ∃ x y, (service q).body = x ++ "ows:ExceptionText".toList ++ y :=
      ⟨fun ⟨x, y, e⟩ => ⟨x, y, e.symm⟩, fun ⟨x, y, e⟩ => ⟨x, y, e.symm⟩⟩
    by_cases hx : ∃ x y, (service q).body = x ++ "ows:ExceptionText".toList ++ y
    · rw [if_pos hx, if_pos (he.mpr hx)]
    · rw [if_neg hx, if_neg (fun h => hx (he.mp h))]
  · have : (service q).ok = true := by simp [Reply.ok]; omega
    rw [if_neg h, this, if_pos rfl]

/-- A call. -/
def sampleArgs (time_step : String) (verbose : Bool) : CamsArgs where
  latitude := fin 40
  longitude := fin 10
  start := ⟨0, none⟩
  stop := ⟨86400, none⟩
  email := "a@b".toList
  time_step := time_step
  verbose := verbose

example {T : Type} (service : Request → Reply (List Char)) (read : List Char → Outcome T) (str : Fl → String) (day : ℤ → String) :=
  cams_refused service read str day (sampleArgs "2h" false) (.inl (by simp [steps, sampleArgs]))

example (str : Fl → String) (day : ℤ → String) :=
  cams_request str day (sampleArgs "1min" true) "PT01M" (by simp [steps, sampleArgs]) (.inl rfl)

example {T : Type} (service : Request → Reply (List Char)) (read : List Char → Outcome T) (str : Fl → String) (day : ℤ → String) :=
  cams_reply service read str day (sampleArgs "1min" true) _ _
    (cams_request str day (sampleArgs "1min" true) "PT01M" (by simp [steps, sampleArgs]) (.inl rfl)).choose_spec.choose_spec.1

example : escapeEmail "john@example.org".toList = "john%2540example.org".toList := by decide +kernel

/-! ## C185: PVGIS files -/

/-- **C185** (format): a given format is used as it is; otherwise the extension of the file name in lower case decides (for a file `stem.ext`
whose extension has no dot), and an open file raises TypeError. -/
theorem pvgis_format (f : FileArg) :
    (∀ s, fileFormat f (some s) = .ok s) ∧ fileFormat .buffer none = .error .typeError ∧
    (∀ (stem ext : List Char), stem ≠ [] → ext ≠ [] → '.' ∉ ext →
      fileFormat (.path (stem ++ '.' :: ext)) none = .ok (pyLower (String.ofList ext))) ∧
    ∀ (name : List Char), '.' ∉ name → fileFormat (.path name) none = .ok "" := by
  refine ⟨fun s => rfl, rfl, fun stem ext h1 h2 h3 => ?_, fun name hn => ?_⟩
  · have ht : (stem ++ '.' :: ext).reverse.takeWhile (· ≠ '.') = ext.reverse := by
      have : (stem ++ '.' :: ext).reverse = ext.reverse ++ '.' :: stem.reverse := by simp
      rw [this, List.takeWhile_append_of_pos]
      · simp
      · intro c hc
        simp only [ne_eq, decide_eq_true_eq]
        rintro rfl; exact h3 (List.mem_reverse.mp hc)
    show Except.ok (extension _) = _
    unfold extension
    dsimp only
    rw [ht, if_neg]
    · rw [List.reverse_reverse]
    · rintro (h | h)
      · exact h2 (by simpa using h)
      · simp only [List.length_append, List.length_cons, List.length_reverse] at h
        have := List.length_pos_iff.mpr h1
        omega
  · have ht : name.reverse.takeWhile (· ≠ '.') = name.reverse := by
      have := List.takeWhile_append_of_pos (p := fun c => decide (c ≠ '.')) (l₁ := name.reverse) (l₂ := []) (by
        intro c hc
        simp only [ne_eq, decide_eq_true_eq]
        rintro rfl; exact hn (List.mem_reverse.mp hc))
      simpa using this
    show Except.ok (extension _) = _
    unfold extension
    dsimp only
    rw [ht, if_pos (.inr (by simp))]

/-- **C185** (reader): hourly files are read as JSON or CSV, every other format raises ValueError. -/
theorem pvgis_hourly {T : Type} (json csv : Except PyErr T) (file : FileArg) (pf : Option String) (f : String) (hf : fileFormat file pf = .ok f) :
    readPvgisHourly json csv file pf = if f = "json" then json else if f = "csv" then csv else .error .valueError := by
  simp [readPvgisHourly, hf]

/-- **C185** (reader): typical-year files are read as EPW, JSON or CSV, every other format (also `basic`) raises ValueError; the columns are
renamed on request, their values and order are unchanged. -/
theorem pvgis_tmy (epw json csv : Except PyErr (List Column)) (file : FileArg) (pf : Option String) (f : String) (names : List (String × String))
    (mv : Bool) (hf : fileFormat file pf = .ok f) :
    (f ∉ ["epw", "json", "csv"] → readPvgisTmy epw json csv file pf names mv = .error .valueError) ∧
    ∀ parsed, ((f = "epw" ∧ parsed = epw) ∨ (f = "json" ∧ parsed = json) ∨ (f = "csv" ∧ parsed = csv)) →
      (∀ e, parsed = .error e → readPvgisTmy epw json csv file pf names mv = .error e) ∧
      ∀ data, parsed = .ok data → ∃ out, readPvgisTmy epw json csv file pf names mv = .ok out ∧ out.map (·.values) = data.map (·.values) ∧
        (mv = false → out = data) := by
  constructor
  · intro h
    simp only [List.mem_cons, List.not_mem_nil, or_false, not_or] at h
    simp [readPvgisTmy, hf, h.1, h.2.1, h.2.2]
  · rintro parsed hp
    have hr : ∀ r : Except PyErr (List Column), parsed = r → readPvgisTmy epw json csv file pf names mv = match r with
        | .error e => .error e
        | .ok data => .ok (if mv then rename names data else data) := by
      rintro r rfl
      rcases hp with ⟨rfl, rfl⟩ | ⟨rfl, rfl⟩ | ⟨rfl, rfl⟩ <;> (simp [readPvgisTmy, hf]; rfl)
    refine ⟨fun e he => hr _ he, fun data hd => ?_⟩
    rw [hr _ hd]
    refine ⟨_, rfl, ?_, fun h => by simp [h]⟩
    cases mv
    · rfl
    · simp [rename, List.map_map, Function.comp_def]

/-- **C185** (metadata): the metadata of a JSON file are those of the file, with the requested inputs in the place of their descriptions and the
descriptions one layer below. -/
theorem pvgis_meta (src : List (String × Json)) (metadata inputs : List (String × Json)) (descriptions : Json)
    (h1 : PyDict.get? src "meta" = some (.obj metadata)) (h2 : PyDict.get? src "inputs" = some (.obj inputs))
    (h3 : PyDict.get? metadata "inputs" = some descriptions) :
    ∃ m i, pvgisMeta (.obj src) = .ok (.obj m) ∧ PyDict.get? m "inputs" = some (.obj i) ∧
      (∀ k, k ≠ "inputs" → PyDict.get? m k = PyDict.get? metadata k) ∧
      (∀ k, PyDict.get? i k = if k = "descriptions" then some descriptions else PyDict.get? inputs k) := by
  refine ⟨PyDict.set metadata "inputs" (.obj (PyDict.set inputs "descriptions" descriptions)), PyDict.set inputs "descriptions" descriptions,
    ?_, ?_, ?_, ?_⟩
  · simp [pvgisMeta, Json.item, h1, h2, h3, Except.bind, Json.setItem]
  · rw [get?_set, if_pos rfl]
  · intro k hk; rw [get?_set, if_neg hk]
  · intro k; rw [get?_set]

private theorem char_value : ∀ n < 10, digitValue (Char.ofNat (48 + n)) = some n := by decide +kernel

/-- Two digits of a number below 100. -/
def two (n : ℕ) : List Char := [Char.ofNat (48 + n / 10), Char.ofNat (48 + n % 10)]
/-- Four digits of a number below 10000. -/
def four (n : ℕ) : List Char :=
  [Char.ofNat (48 + n / 1000), Char.ofNat (48 + n / 100 % 10), Char.ofNat (48 + n / 10 % 10), Char.ofNat (48 + n % 10)]

private theorem two_value (n : ℕ) (h : n < 100) : digitsValue (two n) = some n := by
  simp only [digitsValue, two, List.foldl_cons, List.foldl_nil, char_value _ (show n / 10 < 10 by omega),
    char_value _ (show n % 10 < 10 by omega), Option.bind_some, Option.map_some]
  congr 1; omega

private theorem four_value (n : ℕ) (h : n < 10000) : digitsValue (four n) = some n := by
  simp only [digitsValue, four, List.foldl_cons, List.foldl_nil, char_value _ (show n / 1000 < 10 by omega),
    char_value _ (show n / 100 % 10 < 10 by omega), char_value _ (show n / 10 % 10 < 10 by omega),
    char_value _ (show n % 10 < 10 by omega), Option.bind_some, Option.map_some]
  congr 1; omega

/-- **C185** (time): the text `YYYYmmdd:HHMM` of any moment that exists is read as that moment (UTC); if the date or the time of day does not
exist, ValueError. -/
theorem pvgis_time (y m d h i : ℕ) (hy : y < 10000) (hm : m < 100) (hd : d < 100) (hh : h < 100) (hi : i < 100) :
    pvgisStamp (four y ++ two m ++ two d ++ ':' :: (two h ++ two i)) =
      if (⟨y, m, d⟩ : Calendar.Date).Valid ∧ h ≤ 23 ∧ i ≤ 59 then .ok (1440 * (⟨y, m, d⟩ : Calendar.Date).ordinal + 60 * h + i)
      else .error .valueError := by
  have h1 := four_value y hy
  have h2 := two_value m hm
  have h3 := two_value d hd
  have h4 := two_value h hh
  have h5 := two_value i hi
  simp only [four, two] at h1 h2 h3 h4 h5
  simp only [four, two, List.cons_append, List.nil_append, pvgisStamp, h1, h2, h3, h4, h5]

example : fileFormat (.path "pvgis.hourly.CSV".toList) none = .ok "csv" := by
  have := (pvgis_format .buffer).2.2.1 "pvgis.hourly".toList "CSV".toList (by decide) (by decide) (by decide)
  have e : "pvgis.hourly".toList ++ '.' :: "CSV".toList = "pvgis.hourly.CSV".toList := by decide
  rw [e] at this
  rw [this]; decide +kernel

example : readPvgisHourly (.ok 1) (.ok 2) .buffer (some "CSV") = .error .valueError := by
  rw [pvgis_hourly _ _ _ _ "CSV" rfl]; decide

example := pvgis_time 2020 2 29 23 10 (by norm_num) (by norm_num) (by norm_num) (by norm_num) (by norm_num)

example := pvgis_meta [("meta", .obj [("inputs", .leaf "text"), ("outputs", .leaf "o")]), ("inputs", .obj [("location", .leaf "45")])] _ _ _ rfl rfl rfl

/-! ## C186: renamed parameters, deprecated functions -/

/-- **C186** (renamed): a call with the old name alone is the call with its value under the new name (and no old name), with one warning. -/
theorem renamed_old {α β γ : Type} (old new : String) (hne : old ≠ new) (func : List α → PyDict β → Except PyErr γ) (args : List α)
    (kwargs : PyDict β) (v : β) (ho : kwargs.get? old = some v) (hn : kwargs.get? new = none) :
    ∃ passed : PyDict β, callRenamed old new func args kwargs = (func args passed, 1) ∧ passed.get? new = some v ∧
      passed.get? old = none ∧ ∀ k, k ≠ old → k ≠ new → passed.get? k = kwargs.get? k := by
  have hf : ∀ k, k ≠ old → PyDict.get? (kwargs.filter fun p => p.1 ≠ old) k = kwargs.get? k := by
    intro k hk
    clear ho hn
    induction kwargs with
    | nil => rfl
    | cons p l ih =>
      obtain ⟨n, w⟩ := p
      by_cases h : n = old
      · subst h
        simp only [ne_eq, not_true_eq_false, decide_false, Bool.false_eq_true, not_false_eq_true, List.filter_cons_of_neg, PyDict.get?,
          if_neg (Ne.symm hk)]
        exact ih
      · rw [List.filter_cons_of_pos (by simpa using h)]
        simp only [PyDict.get?]
        rw [ih]
  refine ⟨PyDict.set (kwargs.filter fun p => p.1 ≠ old) new v, ?_, ?_, ?_, ?_⟩
  · simp [callRenamed, renamedKwargs, ho, hn]
  · rw [get?_set, if_pos rfl]
  · rw [get?_set, if_neg hne, get?_none]
    intro p hp he
    have := (List.mem_filter.mp hp).2
    simp [he] at this
  · intro k h1 h2
    rw [get?_set, if_neg h2, hf k h1]

/-- **C186** (renamed): without the old name the function is called as it is, without a warning; with both names ValueError, whatever the
function is. -/
theorem renamed_other {α β γ : Type} (old new : String) (func : List α → PyDict β → Except PyErr γ) (args : List α) (kwargs : PyDict β) :
    (kwargs.get? old = none → callRenamed old new func args kwargs = (func args kwargs, 0)) ∧
    (kwargs.get? old ≠ none → kwargs.get? new ≠ none → callRenamed old new func args kwargs = (.error .valueError, 0)) := by
  constructor
  · intro h; simp [callRenamed, renamedKwargs, h]
  · intro h1 h2
    obtain ⟨v, hv⟩ := Option.ne_none_iff_exists'.mp h1
    obtain ⟨w, hw⟩ := Option.ne_none_iff_exists'.mp h2
    simp [callRenamed, renamedKwargs, hv, hw]

/-- **C186** (deprecated): a deprecated function has the result of the function it stands for, with one warning. -/
theorem deprecated_same {α β γ : Type} (func : List α → PyDict β → Except PyErr γ) (args : List α) (kwargs : PyDict β) :
    (callDeprecated func args kwargs).1 = func args kwargs ∧ (callDeprecated func args kwargs).2 = 1 := ⟨rfl, rfl⟩

/-- **C186** (message): a deprecation that is only announced cannot have a date of removal (ValueError); every other message is made. -/
theorem message_made (since name alternative obj_type addendum : String) (removal : Option String) (pending : Bool) :
    (∃ s, deprecationMessage since name alternative obj_type addendum removal pending = .ok s) ↔
      ¬ (pending = true ∧ ∃ r, removal = some r ∧ r ≠ "") := by
  have h1 : (∃ s, deprecationMessage since name alternative obj_type addendum removal pending = .ok s) ↔ ∃ w, removalText removal pending = .ok w := by
    unfold deprecationMessage
    cases removalText removal pending with
    | error e => simp
    | ok w => exact ⟨fun _ => ⟨w, rfl⟩, fun _ => ⟨_, rfl⟩⟩
  rw [h1]
  unfold removalText
  cases removal with
  | none => simp
  | some r =>
    by_cases h : r = ""
    · simp [h]
    · cases pending <;> simp [h]

/-- **C186** (message): the usual message names the object, the release, the release of removal and the alternative. -/
theorem message_text (since name alternative obj_type r : String) (hr : r ≠ "") (ha : alternative ≠ "") :
    deprecationMessage since name alternative obj_type "" (some r) false =
      .ok ("The " ++ name ++ " " ++ obj_type ++ (" was deprecated in pvlib " ++ since ++ (" and will be removed " ++ ("in " ++ r))) ++ "." ++
        (" Use " ++ alternative ++ " instead.") ++ "") := by
  have h1 : removalText (some r) false = .ok (some ("in " ++ r)) := by
    unfold removalText; dsimp only; rw [if_neg hr, if_neg (by simp)]
  unfold deprecationMessage
  rw [h1]
  dsimp only
  rw [if_neg (by simp), if_pos ha, if_neg (by simp)]

example : ∃ passed : PyDict ℕ, callRenamed "server" "url" (fun _ k => .ok (PyDict.get? k "url")) ([] : List ℕ) [("timeout", 30), ("server", 7)] =
    ((.ok (PyDict.get? passed "url") : Except PyErr (Option ℕ)), 1) ∧ PyDict.get? passed "url" = some 7 := by
  obtain ⟨p, h1, h2, _⟩ := renamed_old "server" "url" (by decide) (fun (_ : List ℕ) k => (.ok (PyDict.get? k "url") : Except PyErr (Option ℕ))) []
    [("timeout", 30), ("server", 7)] 7 (by decide) (by decide)
  exact ⟨p, h1, h2⟩

end Pvlib.Props.RequestsMore
end
