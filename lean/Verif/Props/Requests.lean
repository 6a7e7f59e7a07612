import Verif.Model.IoRequests
import Mathlib.Tactic.Linarith
import Mathlib.Tactic.NormNum
import Mathlib.Tactic.FieldSimp
import Mathlib.Algebra.Order.Round
import Mathlib.Tactic.IntervalCases

/-! # C181–C183: the requests sent to Solcast, Meteonorm and the NSRDB -/

noncomputable section
open scoped Classical
namespace Pvlib.Props.Requests
open Fl Pvlib.Tools Pvlib.IoServices Pvlib.IoRequests

/-! ## Dictionaries -/

theorem get?_set {α : Type} (d : PyDict α) (key : String) (v : α) (k : String) :
    (d.set key v).get? k = if k = key then some v else d.get? k := by
  induction d with
  | nil =>
    by_cases h : k = key
    · subst h; simp [PyDict.set, PyDict.get?]
    · simp [PyDict.set, PyDict.get?, h, Ne.symm h]
  | cons p d ih =>
    obtain ⟨n, w⟩ := p
    by_cases hn : n = key
    · subst hn
      by_cases h : k = n
      · subst h; simp [PyDict.set, PyDict.get?]
      · simp [PyDict.set, PyDict.get?, h, Ne.symm h]
    · simp only [PyDict.set, if_neg hn, PyDict.get?, ih]
      by_cases h : n = k
      · subst h; simp [hn]
      · simp [h]

theorem get?_append {α : Type} (d e : PyDict α) (k : String) :
    PyDict.get? (d ++ e) k = match d.get? k with | some v => some v | none => e.get? k := by
  induction d with
  | nil => rfl
  | cons p d ih =>
    obtain ⟨n, w⟩ := p
    by_cases h : n = k
    · simp [PyDict.get?, h]
    · simp only [List.cons_append, PyDict.get?, if_neg h, ih]

theorem get?_none {α : Type} (d : PyDict α) (k : String) : d.get? k = none ↔ ∀ p ∈ d, p.1 ≠ k := by
  induction d with
  | nil => simp [PyDict.get?]
  | cons p d ih =>
    obtain ⟨n, w⟩ := p
    by_cases h : n = k <;> simp [PyDict.get?, h, ih]

/-! ## C181: Solcast -/

/-- The four kinds of data. -/
inductive Kind where
  | tmy | historic (start stop duration : QVal) | forecast | live

/-- The call of the function for this kind of data. -/
def call {T : Type} (k : Kind) (service : Request → Reply (List (String × T))) (convert : T → T) (latitude longitude : Fl) (api_key : String)
    (kwargs : PyDict QVal) (map_variables : Bool) : Outcome (T × List (String × Fl)) :=
  match k with
  | .tmy => getSolcastTmy service convert latitude longitude api_key kwargs map_variables
  | .historic start stop duration => getSolcastHistoric service convert latitude longitude start api_key stop duration kwargs map_variables
  | .forecast => getSolcastForecast service convert latitude longitude api_key kwargs map_variables
  | .live => getSolcastLive service convert latitude longitude api_key kwargs map_variables

/-- The documented address of the service. -/
def address : Kind → String
  | .tmy => "https://api.solcast.com.au/data/tmy/radiation_and_weather"
  | .historic _ _ _ => "https://api.solcast.com.au/data/historic/radiation_and_weather"
  | .forecast => "https://api.solcast.com.au/data/forecast/radiation_and_weather"
  | .live => "https://api.solcast.com.au/data/live/radiation_and_weather"

/-- The parameter the request has to carry under each name, apart from the caller's own. -/
def standard (k : Kind) (latitude longitude : Fl) (api_key name : String) : Option QVal :=
  if name = "latitude" then some (.num latitude) else if name = "longitude" then some (.num longitude)
  else if name = "format" then some (.str "json") else match k with
  | .historic start stop duration => if name = "start" then some start else if name = "end" then some stop
    else if name = "duration" then some duration else if name = "api_key" then some (.str api_key) else none
  | _ => none

/-- The reply as the caller sees it. -/
def delivered {T : Type} (convert : T → T) (map_variables : Bool) (latitude longitude : Fl) (r : Reply (List (String × T))) :
    Outcome (T × List (String × Fl)) :=
  if r.status = 200 then match r.body.head? with
    | none => .raised .indexError
    | some t => .result (if map_variables then convert t.2 else t.2, [("latitude", latitude), ("longitude", longitude)])
  else .exception

private theorem named_get (k : Kind) (latitude longitude : Fl) (api_key : String) :
    ∃ named : PyDict QVal, (∀ n, named.get? n = standard k latitude longitude api_key n) ∧
      ∀ {T : Type} (service : Request → Reply (List (String × T))) (convert : T → T) (kwargs : PyDict QVal) (mv : Bool),
        call k service convert latitude longitude api_key kwargs mv = match dictCall named kwargs with
          | .error e => .raised e
          | .ok params => delivered convert mv latitude longitude (service ⟨address k, params, [("Authorization", "Bearer " ++ api_key)]⟩) := by
  have hf : ∀ {T : Type} (service : Request → Reply (List (String × T))) (convert : T → T) (e : String) (params : PyDict QVal) (mv : Bool),
      withPlace latitude longitude (fetchSolcast service convert e params api_key mv) =
        delivered convert mv latitude longitude (service ⟨"https://api.solcast.com.au/data" ++ "/" ++ e, params,
          [("Authorization", "Bearer " ++ api_key)]⟩) := by
    intro T service convert e params mv
    unfold fetchSolcast delivered withPlace
    generalize service _ = r
    obtain ⟨s, b⟩ := r
    by_cases h : s = 200
    · cases b with
      | nil => simp [h]
      | cons p b => simp [h]
    · simp [h]
  cases k with
  | tmy =>
    refine ⟨[("latitude", .num latitude), ("longitude", .num longitude), ("format", .str "json")], fun n => ?_, ?_⟩
    · simp only [PyDict.get?, standard, eq_comm (a := n)]
    · intro T service convert kwargs mv
      show (match dictCall _ kwargs with | .error e => _ | .ok params => _) = _
      simp only [hf]; rfl
  | forecast =>
    refine ⟨[("latitude", .num latitude), ("longitude", .num longitude), ("format", .str "json")], fun n => ?_, ?_⟩
    · simp only [PyDict.get?, standard, eq_comm (a := n)]
    · intro T service convert kwargs mv
      show (match dictCall _ kwargs with | .error e => _ | .ok params => _) = _
      simp only [hf]; rfl
  | live =>
    refine ⟨[("latitude", .num latitude), ("longitude", .num longitude), ("format", .str "json")], fun n => ?_, ?_⟩
    · simp only [PyDict.get?, standard, eq_comm (a := n)]
    · intro T service convert kwargs mv
      show (match dictCall _ kwargs with | .error e => _ | .ok params => _) = _
      simp only [hf]; rfl
  | historic start stop duration =>
    refine ⟨[("latitude", .num latitude), ("longitude", .num longitude), ("start", start), ("end", stop), ("duration", duration),
      ("api_key", .str api_key), ("format", .str "json")], fun n => ?_, ?_⟩
    · simp only [PyDict.get?, standard, eq_comm (a := n)]
      by_cases h1 : "latitude" = n
      · simp [h1]
      by_cases h2 : "longitude" = n
      · simp [h1, h2]
      by_cases h3 : "format" = n
      · subst h3; simp
      · simp [h1, h2, h3]
    · intro T service convert kwargs mv
      show (match dictCall _ kwargs with | .error e => _ | .ok params => _) = _
      simp only [hf]; rfl

/-- **C181** (request): unless a further keyword argument repeats one of the function's own names, one request is made: to the documented
address, with the key in the `Authorization` header, the location, `format=json`, the range of a historic request, and the caller's further
keyword arguments unchanged; the outcome depends on nothing but the reply to it. -/
theorem solcast_request (k : Kind) (latitude longitude : Fl) (api_key : String) (kwargs : PyDict QVal)
    (hk : ∀ p ∈ kwargs, standard k latitude longitude api_key p.1 = none) :
    ∃ params : PyDict QVal,
      (∀ n, params.get? n = match standard k latitude longitude api_key n with | some v => some v | none => kwargs.get? n) ∧
      ∀ {T : Type} (service : Request → Reply (List (String × T))) (convert : T → T) (mv : Bool),
        call k service convert latitude longitude api_key kwargs mv =
          delivered convert mv latitude longitude (service ⟨address k, params, [("Authorization", "Bearer " ++ api_key)]⟩) := by
  obtain ⟨named, h1, h2⟩ := named_get k latitude longitude api_key
  have hd : dictCall named kwargs = .ok (named ++ kwargs) := by
    unfold dictCall
    rw [if_neg]
    rintro ⟨p, hp, q, hq, he⟩
    have := hk p hp
    rw [← h1, get?_none] at this
    exact this q hq he.symm
  refine ⟨named ++ kwargs, fun n => ?_, fun service convert mv => ?_⟩
  · rw [get?_append, h1]; cases standard k latitude longitude api_key n <;> rfl
  · rw [h2, hd]

/-- **C181** (repeated names): a further keyword argument named like one of the request's own parameters (in practice `format`) raises
TypeError, whatever the service would reply. -/
theorem solcast_repeated (k : Kind) (latitude longitude : Fl) (api_key : String) (kwargs : PyDict QVal)
    (hk : ∃ p ∈ kwargs, standard k latitude longitude api_key p.1 ≠ none) {T : Type} (service : Request → Reply (List (String × T)))
    (convert : T → T) (mv : Bool) : call k service convert latitude longitude api_key kwargs mv = .raised .typeError := by
  obtain ⟨named, h1, h2⟩ := named_get k latitude longitude api_key
  obtain ⟨p, hp, hn⟩ := hk
  rw [h2]
  have hd : dictCall named kwargs = .error .typeError := by
    unfold dictCall
    rw [if_pos]
    rw [← h1, Ne, get?_none] at hn
    push Not at hn
    obtain ⟨q, hq, he⟩ := hn
    exact ⟨p, hp, q, hq, he.symm⟩
  rw [hd]

/-- **C181** (secret): the key is not among the query parameters of typical-year, forecast and live requests, but it is in those of a
historic request (where it ends up in the address). -/
theorem solcast_key (latitude longitude : Fl) (api_key : String) :
    (∀ k, (k = .tmy ∨ k = .forecast ∨ k = .live) → standard k latitude longitude api_key "api_key" = none) ∧
    ∀ a b c, standard (.historic a b c) latitude longitude api_key "api_key" = some (.str api_key) := by
  constructor
  · rintro k (rfl | rfl | rfl) <;> simp [standard]
  · intro a b c; simp [standard]

example : ∃ params : PyDict QVal, params.get? "format" = some (.str "json") ∧ params.get? "period" = some (.str "PT5M") ∧
    ∀ (service : Request → Reply (List (String × ℕ))), call .live service id (fin 40) (fin (-80)) "k" [("period", .str "PT5M")] true =
      delivered id true (fin 40) (fin (-80)) (service ⟨address .live, params, [("Authorization", "Bearer k")]⟩) := by
  obtain ⟨p, h1, h2⟩ := solcast_request .live (fin 40) (fin (-80)) "k" [("period", .str "PT5M")] (by simp [standard])
  exact ⟨p, by rw [h1]; simp [standard], by rw [h1]; simp [standard, PyDict.get?], fun s => h2 s id true⟩

example := solcast_repeated .tmy (fin 40) (fin (-80)) "k" [("format", .str "csv")] (by simp [standard]) (fun _ => ⟨200, [("a", 1)]⟩) id true

/-! ## C182: Meteonorm -/

/-- The Meteonorm functions. -/
inductive Meteonorm where
  | basic (start stop : TimeArg)
  | precision (start stop : TimeArg) (time_step : String)
  | realtime (start stop : TimeArg) (time_step : String)
  | training (start stop : TimeArg) (time_step : String)
  | tmy (t : MeteonormTmyArgs) (time_step : String)

def query (stamp : ℤ → String) (str : Fl → String) (a : MeteonormArgs) : Meteonorm → Request
  | .basic s e => meteonormForecastBasic stamp str a s e
  | .precision s e t => meteonormForecastPrecision stamp str a s e t
  | .realtime s e t => meteonormObservationRealtime stamp str a s e t
  | .training s e t => meteonormObservationTraining stamp str a s e t
  | .tmy t step => meteonormTmy stamp str a t step

def path : Meteonorm → String
  | .basic _ _ => "forecast/basic"
  | .precision _ _ _ => "forecast/precision"
  | .realtime _ _ _ => "observation/realtime"
  | .training _ _ _ => "observation/training"
  | .tmy _ _ => "climate/tmy"

/-- Meteonorm's name of a time step. -/
def stepName (s : String) : String :=
  if s = "1h" ∨ s = "h" then "1_hour" else if s = "15min" then "15_minutes" else if s = "1min" ∨ s = "min" then "1_minute" else s

def range : Meteonorm → TimeArg × TimeArg
  | .basic s e => (s, e)
  | .precision s e _ => (s, e)
  | .realtime s e _ => (s, e)
  | .training s e _ => (s, e)
  | .tmy _ _ => (.absent, .absent)

def step : Meteonorm → Option String
  | .basic _ _ => none
  | .precision _ _ t => some t
  | .realtime _ _ t => some t
  | .training _ _ t => some t
  | .tmy _ t => some t

/-- A time as the request carries it: absent, text like 'now' or '+3hours' unchanged, and a moment as its wall clock reading. -/
def timeText (stamp : ℤ → String) : TimeArg → QVal
  | .absent => .none
  | .text s => .str s
  | .time t => .str (stamp t.wall)

/-- A text, or numbers separated by commas. -/
def commas (str : Fl → String) : TextOrList → String
  | .text s => s
  | .list xs => ",".intercalate (xs.map str)

private theorem step_default (s : String) : getDefault meteonormSteps s s = stepName s := by
  simp only [getDefault, meteonormSteps, stepName]
  by_cases h1 : s = "1h"
  · simp [h1]
  by_cases h2 : s = "h"
  · simp [h2]
  by_cases h3 : s = "15min"
  · simp [h3]
  by_cases h4 : s = "1min"
  · simp [h4]
  by_cases h5 : s = "min"
  · simp [h5]
  · simp [h1, h2, h3, h4, h5, Ne.symm h1, Ne.symm h2, Ne.symm h3, Ne.symm h4, Ne.symm h5]

private theorem merge_get (kwargs : PyDict QVal) (d : PyDict QVal) (n : String) (hk : (kwargs.map Prod.fst).Nodup) :
    (dictMerge d kwargs).get? n = match kwargs.get? n with | some v => some v | none => d.get? n := by
  induction kwargs generalizing d with
  | nil => rfl
  | cons p kwargs ih =>
    obtain ⟨k, v⟩ := p
    simp only [List.map_cons, List.nodup_cons] at hk
    have := ih (d.set k v) hk.2
    show (dictMerge (d.set k v) kwargs).get? n = _
    rw [this, get?_set]
    by_cases h : k = n
    · subst h
      have hn : PyDict.get? kwargs k = none := by
        rw [get?_none]; intro q hq he
        exact hk.1 (List.mem_map.mpr ⟨q, hq, he⟩)
      simp [PyDict.get?, hn]
    · simp only [PyDict.get?, if_neg h, if_neg (Ne.symm h)]

/-- The value that the request has to carry under each name. -/
def expected (stamp : ℤ → String) (str : Fl → String) (a : MeteonormArgs) (m : Meteonorm) (n : String) : Option QVal :=
  if n = "lat" then some (.num a.latitude) else if n = "lon" then some (.num a.longitude)
  else if n = "start" then some (timeText stamp (range m).1) else if n = "end" then some (timeText stamp (range m).2)
  else if n = "parameters" then some (.str (",".intercalate (meteonormRequest (match a.parameters with | .inl s => [s] | .inr l => l))))
  else if n = "surface_tilt" then some (.num a.surface_tilt) else if n = "surface_azimuth" then some (.num a.surface_azimuth)
  else if n = "horizon" then some (.str (commas str a.horizon))
  else if n = "frequency" then some (match step m with | none => .none | some s => .str (stepName s))
  else if n = "response_format" then some (.str "json")
  else match m with
    | .tmy t _ => if n = "situation" then some (.str t.terrain_situation) else if n = "turbidity" then some (.str (commas str t.turbidity))
      else if n = "clear_sky_radiation_model" then some (.str t.clear_sky_radiation_model)
      else if n = "random_seed" then some (match t.random_seed with | none => .none | some k => .int k)
      else if n = "future_scenario" then some (match t.future_scenario with | none => .none | some s => .str s)
      else if n = "future_year" then some (match t.future_year with | none => .none | some k => .int k)
      else none
    | _ => none

private theorem time_eq (stamp : ℤ → String) (t : TimeArg) : timeParam stamp t = timeText stamp t := by cases t <;> rfl
private theorem joined_eq (str : Fl → String) (t : TextOrList) : joined str t = commas str t := by cases t <;> rfl

private theorem query_get (stamp : ℤ → String) (str : Fl → String) (a : MeteonormArgs) (s e : TimeArg) (t : Option String) (ep : String)
    (kwargs : PyDict QVal) (hk : (kwargs.map Prod.fst).Nodup) (n : String) :
    (meteonormQuery stamp str a s e t ep kwargs).params.get? n =
      if n = "horizon" then some (.str (commas str a.horizon)) else
      if n = "parameters" then some (.str (",".intercalate (meteonormRequest (match a.parameters with | .inl s => [s] | .inr l => l)))) else
      match kwargs.get? n with
      | some v => some v
      | none => if n = "lat" then some (.num a.latitude) else if n = "lon" then some (.num a.longitude)
        else if n = "start" then some (timeText stamp s) else if n = "end" then some (timeText stamp e)
        else if n = "surface_tilt" then some (.num a.surface_tilt) else if n = "surface_azimuth" then some (.num a.surface_azimuth)
        else if n = "frequency" then some (match t with | none => .none | some s => .str (stepName s))
        else if n = "response_format" then some (.str "json") else none := by
  unfold meteonormQuery
  dsimp only
  rw [get?_set, get?_set, merge_get _ _ _ hk]
  by_cases h1 : n = "horizon"
  · rw [if_pos h1, if_pos h1, joined_eq]
  rw [if_neg h1, if_neg h1]
  by_cases h2 : n = "parameters"
  · rw [if_pos h2, if_pos h2]; rfl
  rw [if_neg h2, if_neg h2]
  cases kwargs.get? n with
  | some v => rfl
  | none =>
    simp only [PyDict.get?, eq_comm (b := n), h1, h2, if_false, time_eq, step_default]
    cases t <;> rfl

/-- **C182** (request): every Meteonorm function sends one request to its address with the key in the `Authorization` header; it carries
exactly the location, range, translated parameters, surface, horizon and time step given, and for a typical year the further settings
(`albedo` is not among them). -/
theorem meteonorm_request (stamp : ℤ → String) (str : Fl → String) (a : MeteonormArgs) (m : Meteonorm) :
    (query stamp str a m).url = a.url ++ path m ∧ (query stamp str a m).headers = [("Authorization", "Bearer " ++ a.api_key)] ∧
    ∀ n, (query stamp str a m).params.get? n = expected stamp str a m n := by
  refine ⟨by cases m <;> rfl, by cases m <;> rfl, fun n => ?_⟩
  cases m with
  | basic s e =>
    show (meteonormQuery _ _ _ _ _ _ _ _).params.get? n = _
    rw [query_get _ _ _ _ _ _ _ _ (by simp)]
    simp only [PyDict.get?, expected, range, step]
    by_cases h1 : n = "horizon"; · subst h1; simp
    by_cases h2 : n = "parameters"; · subst h2; simp
    simp only [h1, h2, if_false]
  | precision s e t =>
    show (meteonormQuery _ _ _ _ _ _ _ _).params.get? n = _
    rw [query_get _ _ _ _ _ _ _ _ (by simp)]
    simp only [PyDict.get?, expected, range, step]
    by_cases h1 : n = "horizon"; · subst h1; simp
    by_cases h2 : n = "parameters"; · subst h2; simp
    simp only [h1, h2, if_false]
  | realtime s e t =>
    show (meteonormQuery _ _ _ _ _ _ _ _).params.get? n = _
    rw [query_get _ _ _ _ _ _ _ _ (by simp)]
    simp only [PyDict.get?, expected, range, step]
    by_cases h1 : n = "horizon"; · subst h1; simp
    by_cases h2 : n = "parameters"; · subst h2; simp
    simp only [h1, h2, if_false]
  | training s e t =>
    show (meteonormQuery _ _ _ _ _ _ _ _).params.get? n = _
    rw [query_get _ _ _ _ _ _ _ _ (by simp)]
    simp only [PyDict.get?, expected, range, step]
    by_cases h1 : n = "horizon"; · subst h1; simp
    by_cases h2 : n = "parameters"; · subst h2; simp
    simp only [h1, h2, if_false]
  | tmy t s =>
    show (meteonormQuery _ _ _ _ _ _ _ _).params.get? n = _
    rw [query_get _ _ _ _ _ _ _ _ (by simp only [List.map_cons, List.map_nil]; decide)]
    by_cases h1 : n = "horizon"; · subst h1; rfl
    by_cases h2 : n = "parameters"; · subst h2; rfl
    rw [if_neg h1, if_neg h2]
    by_cases h3 : n = "situation"; · subst h3; rfl
    by_cases h4 : n = "turbidity"; · subst h4; simp [expected, PyDict.get?, joined_eq]
    by_cases h5 : n = "clear_sky_radiation_model"; · subst h5; rfl
    by_cases h6 : n = "random_seed"; · subst h6; simp [expected, PyDict.get?]; rfl
    by_cases h7 : n = "future_scenario"; · subst h7; simp [expected, PyDict.get?]; rfl
    by_cases h8 : n = "future_year"; · subst h8; simp [expected, PyDict.get?]; rfl
    by_cases h9 : n = "response_format"; · subst h9; rfl
    have hk : ∀ (l : PyDict QVal), (∀ p ∈ l, p.1 ≠ n) → l.get? n = none := fun l hl => (get?_none l n).mpr hl
    rw [hk _ (by
      intro p hp
      simp only [List.mem_cons, List.not_mem_nil, or_false] at hp
      rcases hp with rfl | rfl | rfl | rfl | rfl | rfl | rfl <;> dsimp only <;> apply Ne.symm <;> assumption)]
    simp only [expected, range, step, h1, h2, h3, h4, h5, h6, h7, h8, h9, if_false]

/-- **C182** (finding): the albedo given to `get_meteonorm_tmy` has no effect: the request is the same for every value. -/
theorem meteonorm_albedo_ignored (stamp : ℤ → String) (str : Fl → String) (a : MeteonormArgs) (t : MeteonormTmyArgs) (x y : Option Fl)
    (s : String) : meteonormTmy stamp str a { t with albedo := x } s = meteonormTmy stamp str a { t with albedo := y } s := rfl

/-- **C182** (reply): a status of 400 to 599 raises HTTPError; any other reply is parsed. -/
theorem meteonorm_reply {β T : Type} (service : Request → Reply β) (parse : β → T) (q : Request) :
    (400 ≤ (service q).status → (service q).status ≤ 599 → fetchMeteonorm service parse q = .httpError) ∧
    ((service q).status < 400 ∨ 600 ≤ (service q).status → fetchMeteonorm service parse q = .result (parse (service q).body)) := by
  constructor
  · intro h1 h2
    have : (service q).ok = false := by simp [Reply.ok]; omega
    simp only [fetchMeteonorm, this]; rfl
  · intro h
    have : (service q).ok = true := by simp [Reply.ok]; omega
    simp only [fetchMeteonorm, this, if_true]

example := (meteonorm_reply (fun _ => (⟨404, ()⟩ : Reply Unit)) id ⟨"", [], []⟩).1 (by norm_num) (by norm_num)

example (stamp : ℤ → String) (str : Fl → String) : (meteonormTmy stamp str { latitude := 40, longitude := 10, api_key := "k" }
    { turbidity := .list [4.2, 3.9] } "h").params.get? "frequency" = some (.str "1_hour") := by
  refine ((meteonorm_request stamp str { latitude := 40, longitude := 10, api_key := "k" }
    (.tmy { turbidity := .list [4.2, 3.9] } "h")).2.2 "frequency").trans ?_
  simp [expected, step, stepName]

/-! ## C183: NSRDB -/

/-- The value of a decimal digit. -/
def digit (c : Char) : ℕ := c.toNat - 48
/-- The number that a text of digits denotes. -/
def denotes (s : List Char) : ℕ := s.foldl (fun n c => 10 * n + digit c) 0

/-- `s` is a decimal number with four decimals, and denotes `x`: an optional minus sign, one or more digits, a point, four digits. -/
def IsDecimal (s : List Char) (x : ℚ) : Prop :=
  ∃ (sign : Bool) (whole frac : List Char), s = (if sign then ['-'] else []) ++ whole ++ '.' :: frac ∧ whole ≠ [] ∧ frac.length = 4 ∧
    (∀ c ∈ whole ++ frac, '0' ≤ c ∧ c ≤ '9') ∧ x = (if sign then -1 else 1) * ((denotes whole : ℚ) + denotes frac / 10000)

private theorem digit_char : ∀ n < 10, digit (Char.ofNat (48 + n)) = n ∧ '0' ≤ Char.ofNat (48 + n) ∧ Char.ofNat (48 + n) ≤ '9' := by decide +kernel

private theorem digits_facts (n : ℕ) : digits n ≠ [] ∧ (∀ c ∈ digits n, '0' ≤ c ∧ c ≤ '9') ∧ denotes (digits n) = n := by
  induction n using Nat.strong_induction_on with
  | _ n ih =>
    rw [digits]
    split_ifs with h
    · obtain ⟨h1, h2, h3⟩ := digit_char n h
      refine ⟨by simp, by simpa using ⟨h2, h3⟩, by simp [denotes, h1]⟩
    · obtain ⟨i1, i2, i3⟩ := ih (n / 10) (by omega)
      obtain ⟨h1, h2, h3⟩ := digit_char (n % 10) (by omega)
      refine ⟨by simp, ?_, ?_⟩
      · intro c hc
        rcases List.mem_append.mp hc with hc | hc
        · exact i2 c hc
        · simp only [List.mem_singleton] at hc; subst hc; exact ⟨h2, h3⟩
      · unfold denotes at i3 ⊢
        rw [List.foldl_append, i3]
        simp only [List.foldl_cons, List.foldl_nil, h1]
        omega

private theorem four_facts (n : ℕ) (h : n < 10000) : (fourDigits n).length = 4 ∧ (∀ c ∈ fourDigits n, '0' ≤ c ∧ c ≤ '9') ∧ denotes (fourDigits n) = n := by
  obtain ⟨a1, a2, a3⟩ := digit_char (n / 1000 % 10) (by omega)
  obtain ⟨b1, b2, b3⟩ := digit_char (n / 100 % 10) (by omega)
  obtain ⟨c1, c2, c3⟩ := digit_char (n / 10 % 10) (by omega)
  obtain ⟨d1, d2, d3⟩ := digit_char (n % 10) (by omega)
  refine ⟨rfl, ?_, ?_⟩
  · intro c hc
    simp only [fourDigits, List.mem_cons, List.not_mem_nil, or_false] at hc
    rcases hc with rfl | rfl | rfl | rfl <;> constructor <;> assumption
  · simp only [denotes, fourDigits, List.foldl_cons, List.foldl_nil, a1, b1, c1, d1]
    omega

private theorem roundEven_near (y : ℝ) : |(roundEven y : ℝ) - y| ≤ 1 / 2 := by
  unfold roundEven
  have hf : y = ⌊y⌋ + Int.fract y := (Int.floor_add_fract y).symm
  split_ifs with h1 h2
  · rw [h1] at hf; rw [abs_le]; constructor <;> linarith
  · rw [h1] at hf; push_cast; rw [abs_le]; constructor <;> linarith
  · rw [abs_sub_comm]; exact abs_sub_round y

/-- The text of a coordinate denotes a number within half a unit of the fourth decimal. -/
theorem four_decimals (x : ℝ) : ∃ q : ℚ, IsDecimal (fourDecimals (fin x)) q ∧ |(q : ℝ) - x| ≤ 1 / 20000 := by
  have hr := roundEven_near (|x| * 10000)
  have h0 : 0 ≤ roundEven (|x| * 10000) := by
    have : (0 : ℝ) ≤ |x| * 10000 := by positivity
    have h2 := (abs_le.mp hr).1
    have : (-1 : ℝ) < roundEven (|x| * 10000) := by linarith
    have : (-1 : ℤ) < roundEven (|x| * 10000) := by exact_mod_cast this
    omega
  obtain ⟨n, hn⟩ := Int.eq_ofNat_of_zero_le h0
  rw [hn] at hr
  obtain ⟨w1, w2, w3⟩ := digits_facts (n / 10000)
  obtain ⟨f1, f2, f3⟩ := four_facts (n % 10000) (Nat.mod_lt _ (by norm_num))
  have hsum : ((n / 10000 : ℕ) : ℚ) + ((n % 10000 : ℕ) : ℚ) / 10000 = (n : ℚ) / 10000 := by
    have := Nat.div_add_mod n 10000
    have h : (n : ℚ) = 10000 * ((n / 10000 : ℕ) : ℚ) + ((n % 10000 : ℕ) : ℚ) := by exact_mod_cast this.symm
    rw [h]; ring
  refine ⟨(if x < 0 then -1 else 1) * ((n : ℚ) / 10000), ⟨decide (x < 0), digits (n / 10000), fourDigits (n % 10000), ?_, w1, f1, ?_, ?_⟩, ?_⟩
  · simp only [fourDecimals, hn, decide_eq_true_eq]
    rfl
  · intro c hc
    rcases List.mem_append.mp hc with hc | hc
    · exact w2 c hc
    · exact f2 c hc
  · rw [w3, f3, hsum]; simp
  · have hn' : |(n : ℝ) / 10000 - abs x| ≤ 1 / 20000 := by
      rw [abs_le] at hr ⊢
      push_cast at hr
      constructor <;> linarith [hr.1, hr.2]
    by_cases hx : x < 0
    · rw [abs_of_neg hx] at hn'
      simp only [hx, if_true]
      push_cast
      rw [← abs_neg]
      have : -((-1 : ℝ) * ((n : ℝ) / 10000) - x) = (n : ℝ) / 10000 - -x := by ring
      rw [this]; exact hn'
    · rw [abs_of_nonneg (not_lt.mp hx)] at hn'
      simp only [hx, if_false]
      push_cast
      rw [one_mul]; exact hn'

/-- The six functions with the last part of their addresses. -/
def nsrdb : List ((NsrdbArgs → Request) × String) :=
  [(nsrdbAggregated, "nsrdb-GOES-aggregated-v4-0-0-download.csv"), (nsrdbTmy, "nsrdb-GOES-tmy-v4-0-0-download.csv"),
    (nsrdbConus, "nsrdb-GOES-conus-v4-0-0-download.csv"), (nsrdbFullDisc, "nsrdb-GOES-full-disc-v4-0-0-download.csv"),
    (nsrdbPolar, "nsrdb-polar-v4-0-0-download.csv"), (nsrdbPolarTmy, "nsrdb-polar-tmy-v4-0-0-download.csv")]

/-- **C183** (place): each of the six functions asks for the point `POINT(longitude latitude)`, in that order, each coordinate written
with four decimals and within 0.00005 degrees of the one given; the address is that of the data set unless the caller gives another. -/
theorem nsrdb_place (f : (NsrdbArgs → Request) × String) (hf : f ∈ nsrdb) (a : NsrdbArgs) (lat lon : ℝ) (h1 : a.latitude = fin lat)
    (h2 : a.longitude = fin lon) :
    (f.1 a).url = a.url.getD ("https://developer.nlr.gov/api/nsrdb/v2/solar/" ++ f.2) ∧
    ∃ (s t : List Char) (p q : ℚ), (f.1 a).params.get? "wkt" = some (.str ("POINT(" ++ String.ofList s ++ " " ++ String.ofList t ++ ")")) ∧
      IsDecimal s p ∧ IsDecimal t q ∧ |(p : ℝ) - lon| ≤ 1 / 20000 ∧ |(q : ℝ) - lat| ≤ 1 / 20000 := by
  obtain ⟨p, hp, hp'⟩ := four_decimals lon
  obtain ⟨q, hq, hq'⟩ := four_decimals lat
  have key : ∀ u, (nsrdbQuery u a).params.get? "wkt" =
      some (.str ("POINT(" ++ String.ofList (fourDecimals (fin lon)) ++ " " ++ String.ofList (fourDecimals (fin lat)) ++ ")")) := by
    intro u; simp [nsrdbQuery, PyDict.get?, h1, h2]
  refine ⟨?_, _, _, p, q, ?_, hp, hq, hp', hq'⟩
  · simp only [nsrdb, List.mem_cons, List.not_mem_nil, or_false] at hf
    rcases hf with rfl | rfl | rfl | rfl | rfl | rfl <;> rfl
  · simp only [nsrdb, List.mem_cons, List.not_mem_nil, or_false] at hf
    rcases hf with rfl | rfl | rfl | rfl | rfl | rfl <;> exact key _

/-- **C183** (query): every other parameter: the key, name, mail and affiliation given, no mailing list, the year, the translated
variables separated by commas, the two switches in lower case, and the time step. -/
theorem nsrdb_query (f : (NsrdbArgs → Request) × String) (hf : f ∈ nsrdb) (a : NsrdbArgs) (n : String) (hn : n ≠ "wkt") :
    (f.1 a).headers = [] ∧ (f.1 a).params.get? n =
      if n = "api_key" then some (.str a.api_key) else if n = "full_name" then some (.str a.full_name)
      else if n = "email" then some (.str a.email) else if n = "affiliation" then some (.str a.affiliation)
      else if n = "reason" then some (.str "pvlib python") else if n = "mailing_list" then some (.str "false")
      else if n = "names" then some a.year
      else if n = "attributes" then some (.str (",".intercalate (psm4Request a.parameters)))
      else if n = "leap_day" then some (.str (if a.leap_day = true then "true" else "false"))
      else if n = "utc" then some (.str (if a.utc = true then "true" else "false"))
      else if n = "interval" then some (.int a.time_step) else none := by
  have key : ∀ u, (nsrdbQuery u a).headers = [] ∧ (nsrdbQuery u a).params.get? n = _ := fun u => ⟨rfl, rfl⟩
  have : ∀ u, (f.1 a) = nsrdbQuery u a → (f.1 a).headers = [] ∧ (f.1 a).params.get? n = _ := fun u hu => by
    rw [hu]
    refine ⟨rfl, ?_⟩
    simp only [nsrdbQuery, PyDict.get?, eq_comm (b := n), hn, if_false, lowerBool]
    rfl
  simp only [nsrdb, List.mem_cons, List.not_mem_nil, or_false] at hf
  rcases hf with rfl | rfl | rfl | rfl | rfl | rfl <;> exact this _ rfl

example := nsrdb_place (nsrdbPolar, "nsrdb-polar-v4-0-0-download.csv") (by simp [nsrdb])
  { latitude := fin 66.12345, longitude := fin (-110.00005), api_key := "k", email := "m", year := .int 2020, parameters := ["ghi"], leap_day := true }
  66.12345 (-110.00005) rfl rfl

end Pvlib.Props.Requests
end
