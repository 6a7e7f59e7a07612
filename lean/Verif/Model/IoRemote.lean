import Verif.Model.Panond
import Verif.Model.IoIndex
import Verif.Base.Fl

/-! # Model of `pvlib/iotools/sodapro.py` (CAMS) and `pvlib/iotools/pvgis.py`

Lines of files are lists of characters; HTTP is not modelled. -/

namespace Pvlib.IoRemote
open Pvlib.Calendar Pvlib.Panond Pvlib.IoIndex

noncomputable section

/-! ### Text -/

/-- `s.startswith(p)`. (Used for pvlib/iotools/sodapro.py:298.) -/
def startsWith (s p : Text) : Bool := p.isPrefixOf s

/-- `s.lstrip('# ')`. (Used for pvlib/iotools/sodapro.py:300, 303.) -/
def lstripHash (s : Text) : Text := s.dropWhile fun c => c = '#' || c = ' '

/-- `s.split(': ')`. (Used for pvlib/iotools/sodapro.py:302-304.) -/
def splitColon : Text → List Text
  | [] => [[]]
  | [c] => [[c]]
  | c :: d :: rest =>
    if c = ':' ∧ d = ' ' then [] :: splitColon rest
    else match splitColon (d :: rest) with
      | [] => [[c]]
      | y :: ys => (c :: y) :: ys
termination_by s => s.length

/-- `d[key] = value`: replace or append. (Used for pvlib/iotools/sodapro.py:305.) -/
def put {α : Type} (d : List (Text × α)) (k : Text) (v : α) : List (Text × α) :=
  match d with
  | [] => [(k, v)]
  | (k', v') :: rest => if k' = k then (k', v) :: rest else (k', v') :: put rest k v

/-! ### CAMS -/

/-- `'# Observation period'`. (Used for pvlib/iotools/sodapro.py:298.) -/
def observation : Text := "# Observation period".toList

/-- What the loop over the metadata lines delivers: column names, metadata, and the lines left. (Used for
pvlib/iotools/sodapro.py:296-305.) -/
structure CamsHeader where
  names : List Text
  metadata : List (Text × Text)
  rest : List Text

/-- The loop over the metadata lines, pvlib/iotools/sodapro.py:296-305, for at most `fuel` passes (`none`: still running).  `lines` are
the lines of the file without line ends; at the end of the file `readline` delivers an empty line again and again. -/
def camsLoop : ℕ → List Text → List (Text × Text) → Option CamsHeader
  | 0, _, _ => none
  | fuel + 1, lines, metadata =>
    let line := lines.headD []
    if startsWith line observation then some ⟨splitOn ';' (lstripHash line), metadata, lines.tail⟩
    else match splitColon line with
      | key :: value :: _ => camsLoop fuel lines.tail (put metadata (lstripHash key) value)
      | _ => camsLoop fuel lines.tail metadata

/-- `SUMMATION_PERIOD_TO_TIME_STEP`, pvlib/iotools/sodapro.py:41-45. -/
def summationPeriods : List (String × String) :=
  [("0 year 0 month 0 day 0 h 1 min 0 s", "1min"), ("0 year 0 month 0 day 0 h 15 min 0 s", "15min"),
    ("0 year 0 month 0 day 1 h 0 min 0 s", "1h"), ("0 year 0 month 1 day 0 h 0 min 0 s", "1d"),
    ("0 year 1 month 0 day 0 h 0 min 0 s", "1M")]

/-- An entry of the index: a moment in UTC, a date (naive midnight), or the number of the row, if no label was applied. (Used for
pvlib/iotools/sodapro.py:326-340.) -/
inductive CamsIndex where
  | utc (t : Stamp)
  | date (t : Stamp)
  | rowNumber
  deriving DecidableEq

/-- The index entry of a row with observation period from `start` to `stop`, pvlib/iotools/sodapro.py:326-340. -/
def camsIndex (label : Option String) (time_step : String) (start stop : Stamp) : Except PyErr CamsIndex :=
  let index : Option Stamp :=
    if label = some "left" ∨ (label = none ∧ time_step ≠ "1M") then some start
    else if label = some "right" ∨ (label = none ∧ time_step = "1M") then some stop
    else none
  if time_step = "1d" ∨ time_step = "1M" then
    match index with
    | none => .error .attributeError
    | some t =>
      let midnight := 1440 * (t / 1440)
      .ok (.date (if time_step = "1M" ∧ label ≠ some "left" then midnight - 1440 else midnight))
  else .ok (match index with | none => .rowNumber | some t => .utc t)

/-- `TIME_STEPS_IN_HOURS`, pvlib/iotools/sodapro.py:39. -/
def stepHours (time_step : String) : Option Fl :=
  if time_step = "1min" then some (1 / 60)
  else if time_step = "15min" then some (15 / 60)
  else if time_step = "1h" then some 1
  else if time_step = "1d" then some 24
  else none

/-- `CAMS_INTEGRATED_COLUMNS`, pvlib/iotools/sodapro.py:16-19. -/
def camsIntegrated : List String :=
  ["TOA", "Clear sky GHI", "Clear sky BHI", "Clear sky DHI", "Clear sky BNI", "GHI", "BHI", "DHI", "BNI", "GHI no corr",
    "BHI no corr", "DHI no corr", "BNI no corr"]

/-- A value of the table, pvlib/iotools/sodapro.py:342-354. -/
def camsValue (integrated : Bool) (time_step column : String) (start stop : Stamp) (x : Fl) : Except PyErr Fl :=
  if integrated then .ok x
  else if time_step = "1M" then
    .ok (if column ∈ camsIntegrated then x / ((Fl.fin (stop : ℝ) - Fl.fin (start : ℝ)) * 60 / 60 / 60) else x)
  else match stepHours time_step with
    | none => .error (.keyError time_step)
    | some hours => .ok (if column ∈ camsIntegrated then x / hours else x)

/-! ### PVGIS hourly CSV -/

/-- The metadata, the column names, the rows of values and the descriptions. (Used for pvlib/iotools/pvgis.py:262-312.) -/
structure PvgisHourly where
  inputs : List (Text × Text)
  names : List Text
  rows : List (List Text)
  descriptions : List (Text × Text)

/-- `'time,'`. (Used for pvlib/iotools/pvgis.py:279.) -/
def timeHeader : Text := "time,".toList

/-- The metadata section, pvlib/iotools/pvgis.py:277-288; the end of the file is the end of the list. -/
def pvgisInputs : List Text → List (Text × Text) → Except PyErr (List (Text × Text) × List Text × List Text)
  | [], _ => .error .valueError
  | line :: rest, inputs =>
    if startsWith line timeHeader then .ok (inputs, splitOn ',' (strip line), rest)
    else if strip line ≠ [] then
      match splitOn ':' line with
      | key :: value :: _ => pvgisInputs rest (put inputs key (strip value))
      | _ => .error .indexError
    else pvgisInputs rest inputs

/-- The data section, pvlib/iotools/pvgis.py:291-297: until a blank line or the end of the file. -/
def pvgisRows : List Text → List (List Text) × List Text
  | [] => ([], [])
  | line :: rest =>
    if strip line = [] then ([], rest)
    else ((splitOn ',' (strip line)) :: (pvgisRows rest).1, (pvgisRows rest).2)

/-- The descriptions, pvlib/iotools/pvgis.py:307-311. -/
def pvgisDescriptions : List Text → List (Text × Text) → List (Text × Text)
  | [], d => d
  | line :: rest, d => match splitOn ':' line with
    | key :: value :: _ => pvgisDescriptions rest (put d key (strip value))
    | _ => pvgisDescriptions rest d

/-- `_parse_pvgis_hourly_csv` after its first four lines, pvlib/iotools/pvgis.py:275-312; conversion of the values to numbers and of
the time column to the index are not modelled here. -/
def pvgisHourlyCsv (lines : List Text) (inputs : List (Text × Text)) : Except PyErr PvgisHourly :=
  match pvgisInputs lines inputs with
  | .error e => .error e
  | .ok (inputs, names, rest) =>
    let (rows, rest) := pvgisRows rest
    .ok ⟨inputs, names, rows, pvgisDescriptions rest []⟩

/-- `'Irradiance Time Offset'`. (Used for pvlib/iotools/pvgis.py:587.) -/
def timeOffset : Text := "Irradiance Time Offset".toList

/-- The lines of a PVGIS TMY file in CSV format, pvlib/iotools/pvgis.py:585-611, after the first three: the text of the time offset (if the file has
one), the years of the twelve months, the header, the 8760 data lines and the lines left.  (The lines are split later; if the file is
too short, the missing lines are empty.) -/
structure PvgisTmyLines where
  offset : Option Text
  months : List Text
  header : Text
  data : List Text
  rest : List Text

/-- `readline` `n` times. (Used for pvlib/iotools/pvgis.py:596-605.) -/
def readlines (n : ℕ) (lines : List Text) : List Text := (lines ++ List.replicate n []).take n

/-- pvlib/iotools/pvgis.py:585-613. -/
def pvgisTmyCsv (lines : List Text) : PvgisTmyLines :=
  let line := lines.headD []
  let isOffset := startsWith line timeOffset
  let lines := if isOffset then lines.drop 2 else lines.drop 1
  ⟨if isOffset then some line else none, readlines 12 lines, (lines.drop 12).headD [], readlines 8760 (lines.drop 13), lines.drop (13 + 8760)⟩

/-! ### PVGIS TMY: rolling and coercing -/

/-- `np.roll(rows, k, axis=0)`: row `i` is the former row `i - k`, modulo the number of rows. (Used for
pvlib/iotools/pvgis.py:425.) -/
def npRoll {α : Type} (rows : List α) (k : ℤ) : List α :=
  let n := rows.length
  rows.drop ((-k % (n : ℤ)).toNat) ++ rows.take ((-k % (n : ℤ)).toNat)

/-- A row: date, minute of the day (UTC), values. (Used for pvlib/iotools/pvgis.py:420-427.) -/
structure TmyRow (D : Type) where
  date : Date
  minute : ℕ
  values : D

/-- `zoneinfo.ZoneInfo(f'Etc/GMT{-tz:+d}')` exists for offsets from -12 to 14 hours and has the offset `tz` hours. (Used for
pvlib/iotools/pvgis.py:415-419.) -/
def etcOffset (tz : ℤ) : Except PyErr ℤ :=
  if tz = 0 then .ok 0 else if -12 ≤ tz ∧ tz ≤ 14 then .ok tz else .error (.keyError "No time zone found")

/-- `timestamp.replace(year=year)`, pvlib/iotools/pvgis.py:421. -/
def coercedStamp {D : Type} (year : ℕ) (r : TmyRow D) : Except PyErr Stamp :=
  match ofYMD year r.date.month r.date.day with
  | .error e => .error e
  | .ok d => .ok (stamp d.ordinal r.minute)

/-- `_coerce_and_roll_tmy`, pvlib/iotools/pvgis.py:408-431: offset in hours, and local times with their values. -/
def coerceAndRoll {D : Type} (tmy_data : List (TmyRow D)) (tz : Option ℤ) (year : ℕ) : Except PyErr (ℤ × List (Stamp × D)) :=
  match etcOffset (tz.getD 0) with
  | .error e => .error e
  | .ok offset => match each (coercedStamp year) tmy_data with
    | .error e => .error e
    | .ok index => .ok (offset, index.zip (npRoll (tmy_data.map TmyRow.values) (tz.getD 0)))

/-- The end of `get_pvgis_tmy`, pvlib/iotools/pvgis.py:553-556: `none` means the data are returned as they are. -/
def tmyPostprocess {D : Type} (tmy_data : List (TmyRow D)) (roll_utc_offset : Option ℤ) (coerce_year : Option ℕ) :
    Option (Except PyErr (ℤ × List (Stamp × D))) :=
  if roll_utc_offset = none ∧ coerce_year = none then none
  else some (coerceAndRoll tmy_data roll_utc_offset (if coerce_year.getD 0 = 0 then 1990 else coerce_year.getD 0))

/-! ### PVGIS requests -/

/-- `'aspect': surface_azimuth-180`, pvlib/iotools/pvgis.py:211. -/
def aspect (surface_azimuth : Fl) : Fl := surface_azimuth - 180

/-- `get_pvgis_horizon` after the request, pvlib/iotools/pvgis.py:765-771: azimuths counted from north, the second north point
removed. -/
def horizon (profile : List (ℚ × ℚ)) : List (ℚ × ℚ) := (profile.map fun p => (p.1 + 180, p.2)).filter fun p => p.1 < 360

end

end Pvlib.IoRemote
