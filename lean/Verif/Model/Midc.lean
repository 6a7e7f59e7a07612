import Verif.Model.IoIndex
import Verif.Model.IoRequests

/-! # Model of `pvlib/iotools/midc.py`

A CSV file is its header and the fields of its lines, as the CSV reader of pandas converts them. -/

namespace Pvlib.Midc
open Pvlib.Calendar Pvlib.IoIndex Pvlib.IoRequests

/-- A field of a CSV file. (Used for pvlib/iotools/midc.py:206.) -/
inductive Cell where
  | missing
  | int (n : ℕ)
  | text (t : List Char)
  | num (x : Fl)

/-- A CSV file: names in the header, fields of each line (lines may be longer or shorter than the header).  (Used for
pvlib/iotools/midc.py:206.) -/
structure Csv where
  header : List String
  lines : List (List Cell)

/-- A DataFrame: names of its columns, and its rows.  (Used for pvlib/iotools/midc.py:206-212.) -/
structure Frame where
  columns : List String
  rows : List (List Cell)

/-- Exactly `n` fields: fields that a line does not have are missing.  (Used for pvlib/iotools/midc.py:206.) -/
def fit (n : ℕ) (line : List Cell) : List Cell := (line ++ List.replicate n Cell.missing).take n

/-- `pd.read_csv(filename, **kwargs)` with no option but `usecols=range(n)`, pvlib/iotools/midc.py:206, 268-269.  Without `usecols`, as many
leading fields as the first line has more than the header are taken as row labels, and a later line with more fields than the first is an error; with
`usecols=range(n)` the first `n` fields of each line are used and the others are ignored. -/
def readCsv (usecols : Option ℕ) (f : Csv) : Except PyErr Frame :=
  match usecols with
  | some n => if n ≤ f.header.length then .ok ⟨f.header.take n, f.lines.map (fit n)⟩ else .error .valueError
  | none =>
    let width := max f.header.length ((f.lines.head?.map List.length).getD 0)
    if f.lines.any fun l => width < l.length then .error .valueError
    else .ok ⟨f.header, f.lines.map fun l => (fit width l).drop (width - f.header.length)⟩

/-- `data[name]`, pvlib/iotools/midc.py:127: the first column of this name. -/
def Frame.column (data : Frame) (name : String) : Option (List Cell) :=
  if name ∈ data.columns then some (data.rows.map fun r => r.getD (data.columns.idxOf name) .missing) else none

/-- `TZ_MAP.get(tz_raw, tz_raw)`, pvlib/iotools/midc.py:104-107, 126, 150. -/
def timezone (tz_raw : String) : String := if tz_raw = "PST" then "Etc/GMT+8" else if tz_raw = "CST" then "Etc/GMT+6" else tz_raw

/-- `MIDC_VARIABLE_MAP`, pvlib/iotools/midc.py:20-99: for each station, original and new names. -/
def stationMaps : List (String × List (String × String)) := [
  ("BMS", [("Global CMP22 (vent/cor) [W/m^2]", "ghi"), ("Direct CHP1-1 [W/m^2]", "dni_chp1"), ("Direct NIP [W/m^2]", "dni_nip"), ("Diffuse CM22-1 (vent/cor) [W/m^2]", "dhi"), ("Avg Wind Speed @ 6ft [m/s]", "wind_speed"), ("Tower Dry Bulb Temp [deg C]", "temp_air"), ("Tower RH [%]", "relative_humidity")]),
  ("UOSMRL", [("Global CMP22 [W/m^2]", "ghi"), ("Direct CHP1 [W/m^2]", "dni_chp1"), ("Diffuse [W/m^2]", "dhi"), ("Direct NIP [W/m^2]", "dni_nip"), ("Air Temperature [deg C]", "temp_air"), ("Relative Humidity [%]", "relative_humidity"), ("Avg Wind Speed @ 10m [m/s]", "wind_speed")]),
  ("HSU", [("Global Horiz [W/m^2]", "ghi"), ("Direct Normal (calc) [W/m^2]", "dni"), ("Diffuse Horiz (band_corr) [W/m^2]", "dhi")]),
  ("UTPASRL", [("Global Horizontal [W/m^2]", "ghi"), ("Direct Normal [W/m^2]", "dni"), ("Diffuse Horizontal [W/m^2]", "dhi"), ("CHP1 Temp [deg C]", "temp_air")]),
  ("UAT", [("Global Horiz (platform) [W/m^2]", "ghi"), ("Direct Normal [W/m^2]", "dni"), ("Diffuse Horiz [W/m^2]", "dhi"), ("Air Temperature [deg C]", "temp_air"), ("Rel Humidity [%]", "relative_humidity"), ("Avg Wind Speed @ 3m [m/s]", "wind_speed")]),
  ("STAC", [("Global Horizontal [W/m^2]", "ghi"), ("Direct Normal [W/m^2]", "dni"), ("Diffuse Horizontal [W/m^2]", "dhi"), ("Avg Wind Speed @ 10m [m/s]", "wind_speed"), ("Air Temperature [deg C]", "temp_air"), ("Rel Humidity [%]", "relative_humidity")]),
  ("UNLV", [("Global Horiz [W/m^2]", "ghi"), ("Direct Normal [W/m^2]", "dni"), ("Diffuse Horiz (calc) [W/m^2]", "dhi"), ("Dry Bulb Temp [deg C]", "temp_air"), ("Avg Wind Speed @ 30ft [m/s]", "wind_speed")]),
  ("ORNL", [("Global Horizontal [W/m^2]", "ghi"), ("Direct Normal [W/m^2]", "dni"), ("Diffuse Horizontal [W/m^2]", "dhi"), ("Air Temperature [deg C]", "temp_air"), ("Rel Humidity [%]", "relative_humidity"), ("Avg Wind Speed @ 42ft [m/s]", "wind_speed")]),
  ("NELHA", [("Global Horizontal [W/m^2]", "ghi"), ("Air Temperature [W/m^2]", "temp_air"), ("Avg Wind Speed @ 10m [m/s]", "wind_speed"), ("Rel Humidity [%]", "relative_humidity")]),
  ("ULL", [("Global Horizontal [W/m^2]", "ghi"), ("Direct Normal [W/m^2]", "dni"), ("Diffuse Horizontal [W/m^2]", "dhi"), ("Air Temperature [deg C]", "temp_air"), ("Rel Humidity [%]", "relative_humidity"), ("Avg Wind Speed @ 3m [m/s]", "wind_speed")]),
  ("NWTC", [("Global Horizontal [W/m^2]", "ghi"), ("Direct Normal [W/m^2]", "dni"), ("Diffuse Horizontal [W/m^2]", "dhi"), ("Temperature @ 2m [deg C]", "temp_air"), ("Avg Wind Speed @ 2m [m/s]", "wind_speed"), ("Relative Humidity [%]", "relative_humidity")])]

/-- One or two digits. (Used for pvlib/iotools/midc.py:128.) -/
def short (t : List Char) : Option ℕ := if 1 ≤ t.length ∧ t.length ≤ 2 then digitsValue t else none

/-- `pd.to_datetime(t, format='%m/%d/%Y%H:%M')`, pvlib/iotools/midc.py:128: month, day, hour and minute of one or two digits, year of four; ValueError unless the
moment exists. -/
def parseStamp (t : List Char) : Except PyErr Stamp :=
  let month := t.takeWhile (· ≠ '/')
  let t := (t.dropWhile (· ≠ '/')).drop 1
  let day := t.takeWhile (· ≠ '/')
  let t := (t.dropWhile (· ≠ '/')).drop 1
  let year := t.take 4
  let t := t.drop 4
  let hour := t.takeWhile (· ≠ ':')
  let minute := (t.dropWhile (· ≠ ':')).drop 1
  match short month, short day, (if year.length = 4 then digitsValue year else none), short hour, short minute with
  | some mo, some d, some y, some h, some mi => ymdhm y mo d h mi
  | _, _, _, _, _ => .error .valueError

/-- One entry of the index of `_format_index`, pvlib/iotools/midc.py:127-128: `none` is NaT. -/
def dateTime (date time : Cell) : Except PyErr (Option Stamp) :=
  match date, time with
  | .text a, .text b => match parseStamp (a ++ b) with
    | .error e => .error e
    | .ok s => .ok (some s)
  | .missing, _ => .ok none
  | _, .missing => .ok none
  | _, _ => .error .typeError

/-- One entry of the index of `_format_index_raw`, pvlib/iotools/midc.py:151-154: `'{:03d}'` and `'{:04d}'` of anything but an integer is an error; a year that is
not of four digits is simplified to an error. -/
def rawDateTime (year jday time : Cell) : Except PyErr (Option Stamp) :=
  match year, jday, time with
  | .int y, .int j, .int t =>
    if 1000 ≤ y ∧ y ≤ 9999 ∧ j ≤ 999 ∧ t ≤ 9999 then
      match yjhm y j (t / 100) (t % 100) with
      | .error e => .error e
      | .ok s => .ok (some s)
    else .error .valueError
  | _, _, _ => .error .valueError

/-- `data.tz_localize(timezone)`, pvlib/iotools/midc.py:130, 156: `zones` is the time zone database, which for a zone takes local times to instants. -/
def localized (zones : String → Option (Stamp → Except PyErr ℤ)) (zone : String) (index : List (Option Stamp)) : Except PyErr (List (Option ℤ)) :=
  match zones zone with
  | none => .error (.keyError zone)
  | some z => each (fun s => match s with
    | none => .ok none
    | some s => match z s with
      | .error e => .error e
      | .ok t => .ok (some t)) index

/-- `_format_index`, pvlib/iotools/midc.py:110-131: the index. -/
def formatIndex (zones : String → Option (Stamp → Except PyErr ℤ)) (data : Frame) : Except PyErr (List (Option ℤ)) :=
  match data.columns[1]? with
  | none => .error .indexError
  | some tz_raw => match data.column "DATE (MM/DD/YYYY)", data.column tz_raw with
    | some dates, some times => match each (fun p : Cell × Cell => dateTime p.1 p.2) (dates.zip times) with
      | .error e => .error e
      | .ok index => localized zones (timezone tz_raw) index
    | _, _ => .error (.keyError "DATE (MM/DD/YYYY)")

/-- `_format_index_raw`, pvlib/iotools/midc.py:134-157: the index. -/
def formatIndexRaw (zones : String → Option (Stamp → Except PyErr ℤ)) (data : Frame) : Except PyErr (List (Option ℤ)) :=
  match data.columns[3]? with
  | none => .error .indexError
  | some tz_raw => match data.column "Year", data.column "DOY", data.column tz_raw with
    | some years, some jdays, some times =>
      match each (fun p : Cell × Cell × Cell => rawDateTime p.1 p.2.1 p.2.2) (years.zip (jdays.zip times)) with
      | .error e => .error e
      | .ok index => localized zones (timezone tz_raw) index
    | _, _, _ => .error .attributeError

/-- `read_midc`, pvlib/iotools/midc.py:160-212: index and data.  `variable_map` is a dictionary; `usecols` the only option of the CSV reader. -/
def readMidc (zones : String → Option (Stamp → Except PyErr ℤ)) (f : Csv) (variable_map : String → Option String) (raw_data : Bool) (usecols : Option ℕ) :
    Except PyErr (List (Option ℤ) × Frame) :=
  match readCsv usecols f with
  | .error e => .error e
  | .ok data => match (if raw_data then formatIndexRaw zones data else formatIndex zones data) with
    | .error e => .error e
    | .ok index => .ok (index, ⟨data.columns.map fun c => (variable_map c).getD c, data.rows⟩)

/-- `pd.to_datetime(day).strftime('%Y%m%d')` for years of four digits, pvlib/iotools/midc.py:255-256. -/
def ymdText (d : Date) : String := String.ofList (fourDigits d.year ++
  [Char.ofNat (48 + d.month / 10), Char.ofNat (48 + d.month % 10), Char.ofNat (48 + d.day / 10), Char.ofNat (48 + d.day % 10)])

/-- `read_midc_raw_data_from_nrel`, pvlib/iotools/midc.py:215-269: `get` is `requests.get` with `raise_for_status` for the query parameters, its text as a
CSV file.  (The zero-row read of the header cannot fail in the model.) -/
def readMidcFromNrel (zones : String → Option (Stamp → Except PyErr ℤ)) (get : List (String × String) → Except PyErr Csv) (site : String) (start stop : Date)
    (variable_map : String → Option String) : Except PyErr (List (Option ℤ) × Frame) :=
  match get [("site", site), ("begin", ymdText start), ("end", ymdText stop)] with
  | .error e => .error e
  | .ok f => readMidc zones f variable_map true (some f.header.length)

end Pvlib.Midc
