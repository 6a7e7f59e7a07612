import Verif.Model.Panond
import Verif.Model.IoIndex

/-! # Model of the tables of `pvlib/iotools`: column names, quality flags, missing values, downloads of several files

A table is a list of named columns.  What HTTP and FTP servers deliver for a file is a parameter. -/

namespace Pvlib.IoTables
open Pvlib.Calendar Pvlib.Panond

noncomputable section

/-! ### SRML columns -/

/-- `VARIABLE_MAP` of SRML, pvlib/iotools/srml.py:15-25. -/
def srmlMap : List (String × String) :=
  [("100", "ghi"), ("201", "dni"), ("300", "dhi"), ("920", "wind_direction"), ("921", "wind_speed"), ("930", "temp_air"),
    ("931", "temp_dew"), ("933", "relative_humidity"), ("937", "temp_cell")]

/-- Look a text up in a dictionary of strings. (Used for pvlib/iotools/srml.py:114, 118.) -/
def lookup (d : List (String × String)) (key : Text) : Option Text :=
  match d with
  | [] => none
  | (k, v) :: rest => if k.toList = key then some v.toList else lookup rest key

/-- `_map_columns`, pvlib/iotools/srml.py:97-122. -/
def mapColumns (col : Text) : Text :=
  if col.head? = some '7' then
    match lookup srmlMap col with
    | some v => v
    | none => col
  else match lookup srmlMap (col.take 3) with
    | some variable_name => variable_name ++ '_' :: col.drop 3
    | none => col

/-- A named column. (Used for pvlib/iotools/srml.py:65-94.) -/
structure Column where
  name : Text
  values : List Fl

/-- Every second entry, from the first on: `columns[::2]`. (Used for pvlib/iotools/srml.py:91.) -/
def evens {α : Type} : List α → List α
  | [] => []
  | [a] => [a]
  | a :: _ :: rest => a :: evens rest

/-- Every second entry, from the second on: `columns[1::2]`. (Used for pvlib/iotools/srml.py:87.) -/
def odds {α : Type} : List α → List α
  | [] => []
  | [_] => []
  | _ :: b :: rest => b :: odds rest

/-- `'_flag'`. (Used for pvlib/iotools/srml.py:86, 92.) -/
def flagSuffix : Text := "_flag".toList

/-- The new name of a column, pvlib/iotools/srml.py:86-88: `columns[columns.get_loc(flag) - 1] + '_flag'` for the flags; negative
positions cannot occur, and `get_loc` is the position of the name (names are taken to be distinct, as `read_csv` makes them). -/
def flagName (columns : List Text) (name : Text) : Text :=
  if name ∈ odds columns then (columns.getD (columns.idxOf name - 1) []) ++ flagSuffix else name

open Classical in
/-- One column with bad values masked, pvlib/iotools/srml.py:92-93. -/
def maskColumn (data : List Column) (col : Text) : Except PyErr (List Column) :=
  match data.find? (fun c => c.name = col ++ flagSuffix) with
  | none => .error (.keyError (String.ofList (col ++ flagSuffix)))
  | some flags => .ok (data.map fun c =>
      if c.name = col then ⟨c.name, List.zipWith (fun x f => if f = (99 : Fl) then Fl.nan else x) c.values flags.values⟩ else c)

/-- The loop over the variables, pvlib/iotools/srml.py:91-93. -/
def maskAll : List Text → List Column → Except PyErr (List Column)
  | [], data => .ok data
  | col :: cols, data => match maskColumn data col with
    | .error e => .error e
    | .ok data => maskAll cols data

/-- `read_srml` after the index has been set, pvlib/iotools/srml.py:67-94; `table` are the columns after the first two. -/
def srmlTable (map_variables : Bool) (table : List Column) : Except PyErr (List Column) :=
  let data := if map_variables then table.map fun c => ⟨mapColumns c.name, c.values⟩ else table
  let columns := data.map Column.name
  let data := data.map fun c => (⟨flagName columns c.name, c.values⟩ : Column)
  maskAll (evens columns) data

/-! ### Missing values of the other networks -/

open Classical in
/-- `data.where(~(data == -9999.9), np.nan)`, pvlib/iotools/surfrad.py:157-158. -/
def surfradCell (x : Fl) : Fl := if x = -(9999.9 : Fl) then Fl.nan else x

/-- `NAN_DICT`, pvlib/iotools/crn.py:27-37: the missing value of each column. -/
def crnMissing : List (String × Fl) :=
  [("CRX_VN", -99999), ("AIR_TEMPERATURE", -9999), ("PRECIPITATION", -9999), ("SOLAR_RADIATION", -99999),
    ("SURFACE_TEMPERATURE", -9999), ("RELATIVE_HUMIDITY", -9999), ("SOIL_MOISTURE_5", -99), ("SOIL_TEMPERATURE_5", -9999),
    ("WETNESS", -9999), ("WIND_1_5", -99)]

open Classical in
/-- `data.replace(NAN_DICT, value=np.nan)` of one cell, pvlib/iotools/crn.py:127.  (`CRX_VN` is a column of strings, in which no number
occurs; the six NUL characters that are replaced as well are not numbers either.) -/
def crnCell (column : String) (x : Fl) : Fl :=
  if column ≠ "CRX_VN" ∧ (column, x) ∈ crnMissing then Fl.nan else x

/-- CRN headers, pvlib/iotools/crn.py:8-13. -/
def crnHeaders : List String :=
  ["WBANNO", "UTC_DATE", "UTC_TIME", "LST_DATE", "LST_TIME", "CRX_VN", "LONGITUDE", "LATITUDE", "AIR_TEMPERATURE",
    "PRECIPITATION", "SOLAR_RADIATION", "SR_FLAG", "SURFACE_TEMPERATURE", "ST_TYPE", "ST_FLAG", "RELATIVE_HUMIDITY",
    "RH_FLAG", "SOIL_MOISTURE_5", "SOIL_TEMPERATURE_5", "WETNESS", "WET_FLAG", "WIND_1_5", "WIND_FLAG"]

/-- Adding the blank between columns, but not after the last, pvlib/iotools/crn.py:45-47 and pvlib/iotools/solrad.py:31-35. -/
def withBlanks : List ℕ → List ℕ
  | [] => []
  | [w] => [w]
  | w :: ws => (w + 1) :: withBlanks ws

/-- CRN widths, pvlib/iotools/crn.py:43-47. -/
def crnWidths : List ℕ := withBlanks [5, 8, 4, 8, 4, 6, 7, 7, 7, 7, 6, 1, 7, 1, 1, 5, 1, 7, 7, 5, 1, 6, 1]

/-- SOLRAD headers, pvlib/iotools/solrad.py:9-18. -/
def solradHeaders : List String :=
  ["year", "julian_day", "month", "day", "hour", "minute", "decimal_time", "solar_zenith", "ghi", "ghi_flag", "dni",
    "dni_flag", "dhi", "dhi_flag", "uvb", "uvb_flag", "uvb_temp", "uvb_temp_flag", "std_dw_psp", "std_direct",
    "std_diffuse", "std_uvb"]

/-- SOLRAD headers of Madison, pvlib/iotools/solrad.py:20-24. -/
def madisonHeaders : List String :=
  ["year", "julian_day", "month", "day", "hour", "minute", "decimal_time", "solar_zenith", "ghi", "ghi_flag", "dni",
    "dni_flag", "dhi", "dhi_flag", "uvb", "uvb_flag", "uvb_temp", "uvb_temp_flag", "dpir", "dpir_flag", "dpirc",
    "dpirc_flag", "dpird", "dpird_flag", "std_dw_psp", "std_direct", "std_diffuse", "std_uvb", "std_dpir", "std_dpirc",
    "std_dpird"]

/-- SOLRAD widths, pvlib/iotools/solrad.py:28-34. -/
def solradWidths : List ℕ :=
  withBlanks ([4, 3] ++ List.replicate 4 2 ++ [6, 6] ++ (List.replicate 5 [7, 1]).flatten ++ List.replicate 4 9)

/-- SOLRAD widths of Madison, pvlib/iotools/solrad.py:29-35. -/
def madisonWidths : List ℕ :=
  withBlanks ([4, 3] ++ List.replicate 4 2 ++ [6, 6] ++ (List.replicate 8 [7, 1]).flatten ++ List.replicate 7 9)

/-! ### Downloads of several files -/

/-- The `n` days from `d` on: `pd.date_range(start.floor('D'), end, freq='D')`. (Used for pvlib/iotools/surfrad.py:249 and
pvlib/iotools/solrad.py:198.) -/
def daysFrom (d : Date) : ℕ → List Date
  | 0 => []
  | n + 1 => d :: daysFrom d.next n

/-- The days for which files are requested, pvlib/iotools/surfrad.py:246-249 and pvlib/iotools/solrad.py:194-198: from the day of
`start` to the day of `end`. -/
def fileDays (start «end» : Date) : List Date := daysFrom start («end».ordinal + 1 - start.ordinal)

/-- The first day of the next month. (Used for pvlib/iotools/srml.py:239.) -/
def nextMonth (d : Date) : Date := if d.month < 12 then ⟨d.year, d.month + 1, 1⟩ else ⟨d.year + 1, 1, 1⟩

/-- The `n` months from the one of `d` on. (Used for pvlib/iotools/srml.py:239 and pvlib/iotools/bsrn.py:164.) -/
def monthsFrom (d : Date) : ℕ → List Date
  | 0 => []
  | n + 1 => d :: monthsFrom (nextMonth d) n

/-- `pd.date_range(start.date().replace(day=1), end, freq='1MS')`, pvlib/iotools/srml.py:239 and pvlib/iotools/bsrn.py:164: the first
days of the months from the one of `start` to the one of `end`. -/
def fileMonths (start «end» : Date) : List Date :=
  monthsFrom ⟨start.year, start.month, 1⟩ (12 * «end».year + «end».month + 1 - (12 * start.year + start.month))

/-- What requesting and reading one file does: it delivers a table, the server does not have it, or another exception is raised.
(Used for pvlib/iotools/surfrad.py:259-266.) -/
inductive Fetched (T : Type) where
  | ok (t : T)
  | missing
  | raises (e : PyErr)

/-- The loop over the files, pvlib/iotools/surfrad.py:257-266, pvlib/iotools/solrad.py:205-211, pvlib/iotools/srml.py:245-251 and
pvlib/iotools/bsrn.py:176-202: the tables, in order, and the files that were not found. -/
def fetchAll {F T : Type} (fetch : F → Fetched T) : List F → Except PyErr (List T × List F)
  | [] => .ok ([], [])
  | f :: fs => match fetch f with
    | .raises e => .error e
    | .ok t => match fetchAll fetch fs with
      | .error e => .error e
      | .ok (ts, ms) => .ok (t :: ts, ms)
    | .missing => match fetchAll fetch fs with
      | .error e => .error e
      | .ok (ts, ms) => .ok (ts, f :: ms)

/-- A file's name: directory year, two-digit year, day of the year. (Used for pvlib/iotools/surfrad.py:252-255 and
pvlib/iotools/solrad.py:200-203.) -/
def dayFile (d : Date) : ℕ × ℕ × ℕ := (d.year, d.year % 100, d.doy)

/-- A file's name: two-digit year and month, pvlib/iotools/srml.py:240-243 and pvlib/iotools/bsrn.py:165. -/
def monthFile (d : Date) : ℕ × ℕ := (d.year % 100, d.month)

/-- Data (the rows of all tables), metadata and missing files. (Used for pvlib/iotools/surfrad.py:275-282.) -/
structure Download (R M F : Type) where
  data : List R
  metadata : M
  filenames : List F
  missing : List F

/-- `get_surfrad` and `get_solrad`, pvlib/iotools/surfrad.py:246-282 and pvlib/iotools/solrad.py:194-221.  `read map_variables name` is
`read_surfrad(url + name, map_variables)`.  Without any file ValueError is raised (in `get_solrad` by `pd.concat`). -/
def getDays {R M : Type} (read : ℕ × ℕ × ℕ → Fetched (List R × M)) (start «end» : Date) :
    Except PyErr (Download R M (ℕ × ℕ × ℕ)) :=
  let filenames := (fileDays start «end»).map dayFile
  match fetchAll read filenames with
  | .error e => .error e
  | .ok (dfs, missing) => match dfs.getLast? with
    | none => .error .valueError
    | some last => .ok ⟨(dfs.map Prod.fst).flatten, last.2, filenames, missing⟩

/-- `get_surfrad`, pvlib/iotools/surfrad.py:246-282: the argument passed on as `map_variables` is the dictionary `VARIABLE_MAP`, which
is true as a condition. -/
def getSurfrad {R M : Type} (read : Bool → ℕ × ℕ × ℕ → Fetched (List R × M)) (start «end» : Date) (_map_variables : Bool) :
    Except PyErr (Download R M (ℕ × ℕ × ℕ)) := getDays (read true) start «end»

/-- `get_solrad`, pvlib/iotools/solrad.py:194-221. -/
def getSolrad {R M : Type} (read : ℕ × ℕ × ℕ → Fetched (List R × M)) (start «end» : Date) :
    Except PyErr (Download R M (ℕ × ℕ × ℕ)) := getDays read start «end»

/-- `get_srml`, pvlib/iotools/srml.py:235-259; the metadata do not come from the files. -/
def getSrml {R : Type} (read : Bool → ℕ × ℕ → Fetched (List R)) (start «end» : Date) (map_variables : Bool) :
    Except PyErr (Download R Unit (ℕ × ℕ)) :=
  let filenames := (fileMonths start «end»).map monthFile
  match fetchAll (read map_variables) filenames with
  | .error e => .error e
  | .ok (dfs, missing) => if dfs.isEmpty then .error .valueError else .ok ⟨dfs.flatten, (), filenames, missing⟩

/-- `get_bsrn`, pvlib/iotools/bsrn.py:160-218: without any file the table is empty and the metadata are `{}`. -/
def getBsrn {R M : Type} (empty : M) (read : ℕ × ℕ → Fetched (List R × M)) (start «end» : Date) :
    Except PyErr (Download R M (ℕ × ℕ)) :=
  let filenames := (fileMonths start «end»).map monthFile
  match fetchAll read filenames with
  | .error e => .error e
  | .ok (dfs, missing) => match dfs.getLast? with
    | none => .ok ⟨[], empty, filenames, missing⟩
    | some last => .ok ⟨(dfs.map Prod.fst).flatten, last.2, filenames, missing⟩

/-! ### BSRN files -/

/-- The state of the loop over the lines: line numbers of the headers of the records and numbers of lines of the records that ended.
(Used for pvlib/iotools/bsrn.py:294-301.) -/
structure Scan where
  lr : Option Text
  startrow : List (Text × ℕ)
  nrows : List (Text × ℕ)

/-- `d[k]` of a dictionary, last assignment first. (Used for pvlib/iotools/bsrn.py:294-302.) -/
def dget {α : Type} (d : List (Text × α)) (k : Text) : Option α :=
  match d with
  | [] => none
  | (k', v) :: rest => if k' = k then some v else dget rest k

/-- One line, pvlib/iotools/bsrn.py:297-301. -/
def scanLine (s : Scan) (num : ℕ) (line : Text) : Scan :=
  if line.head? = some '*' then
    let nrows := match s.lr with
      | none => s.nrows
      | some lr => (lr, num - (dget s.startrow lr).getD 0 - 1) :: s.nrows
    let lr := (line.take 6).drop 2
    ⟨some lr, (lr, num) :: s.startrow, nrows⟩
  else s

/-- All lines, from number `num` on, pvlib/iotools/bsrn.py:296-301. -/
def scanLines (s : Scan) (num : ℕ) : List Text → Scan
  | [] => s
  | line :: lines => scanLines (scanLine s num line) (num + 1) lines

/-- `lr_startrow` and `lr_nrows`, pvlib/iotools/bsrn.py:293-302; NameError for a file without records. -/
def records (lines : List Text) : Except PyErr (List (Text × ℕ) × List (Text × ℕ)) :=
  let s := scanLines ⟨none, [], []⟩ 0 lines
  match s.lr with
  | none => .error .unboundLocal
  | some lr => .ok (s.startrow, (lr, (lines.length - 1) - (dget s.startrow lr).getD 0) :: s.nrows)

/-- The lines of a record that `read_fwf` is given, pvlib/iotools/bsrn.py:313-316: `nrows` lines after `skiprows`. -/
def recordLines (lines : List Text) (startrow nrows : List (Text × ℕ)) (lr : Text) : Option (List Text) :=
  match dget startrow lr with
  | none => none
  | some start => some ((lines.drop (start + 1)).take ((dget nrows lr).getD 0))

/-- Unstacking by `index // 2` and `index % 2`, columns sorted, pvlib/iotools/bsrn.py:318-321, 350-353: every two lines become one row;
an odd last line is filled up with NaN. -/
def pairRows (width : ℕ) : List (List Fl) → List (List Fl)
  | [] => []
  | [a] => [a ++ List.replicate width Fl.nan]
  | a :: b :: rest => (a ++ b) :: pairRows width rest

open Classical in
/-- Missing values, pvlib/iotools/bsrn.py:316, 335. -/
def bsrnCell (x : Fl) : Fl := if x = -(999.0 : Fl) ∨ x = -(99.9 : Fl) then Fl.nan else x

/-- `BSRN_LR0100_COLUMNS`, pvlib/iotools/bsrn.py:29-35. -/
def lr0100Columns : List String :=
  ["day", "minute", "ghi", "ghi_std", "ghi_min", "ghi_max", "dni", "dni_std", "dni_min", "dni_max", "empty", "empty",
    "empty", "empty", "empty", "dhi", "dhi_std", "dhi_min", "dhi_max", "lwd", "lwd_std", "lwd_min", "lwd_max",
    "temp_air", "relative_humidity", "pressure"]

/-- `BSRN_LR0300_COLUMNS`, pvlib/iotools/bsrn.py:37-40. -/
def lr0300Columns : List String :=
  ["day", "minute", "gri", "gri_std", "gri_min", "gri_max", "lwu", "lwu_std", "lwu_min", "lwu_max", "net_radiation",
    "net_radiation_std", "net_radiation_min", "net_radiation_max"]

/-- `BSRN_LR0500_COLUMNS`, pvlib/iotools/bsrn.py:42-50. -/
def lr0500Columns : List String :=
  ["day", "minute", "uva_global", "uva_global_std", "uva_global_min", "uva_global_max", "uvb_direct", "uvb_direct_std",
    "uvb_direct_min", "uvb_direct_max", "empty", "empty", "empty", "empty", "empty", "empty", "uvb_global",
    "uvb_global_std", "uvb_global_min", "uvb_global_max", "uvb_diffuse", "uvb_diffuse_std", "uvb_diffuse_min",
    "uvb_diffuse_max", "uvb_reflected", "uvb_reflected_std", "uvb_reflected_min", "uvb_reflected_max"]

/-- `BSRN_LR0100_COL_SPECS`, pvlib/iotools/bsrn.py:17-19. -/
def lr0100Specs : List (ℕ × ℕ) :=
  [(0, 3), (4, 9), (10, 16), (16, 22), (22, 27), (27, 32), (32, 39), (39, 45), (45, 50), (50, 55), (55, 64), (64, 70), (70, 75)]

/-- `BSRN_LR0300_COL_SPECS`, pvlib/iotools/bsrn.py:21-23. -/
def lr0300Specs : List (ℕ × ℕ) :=
  [(1, 3), (4, 9), (10, 16), (16, 22), (22, 27), (27, 31), (31, 38), (38, 44), (44, 49), (49, 54), (54, 61), (61, 67), (67, 72), (72, 78)]

/-- `BSRN_LR0500_COL_SPECS`, pvlib/iotools/bsrn.py:25-27. -/
def lr0500Specs : List (ℕ × ℕ) :=
  [(0, 3), (3, 8), (8, 14), (14, 20), (20, 26), (26, 32), (32, 38), (38, 44), (44, 50), (50, 56), (56, 62), (62, 68), (68, 74), (74, 80)]

/-- The columns of the empty table, pvlib/iotools/bsrn.py:56-63. -/
def emptyColumns (columns : String → List String) (logical_records : List String) : List String :=
  ((logical_records.map fun lr => (columns lr).drop 2).flatten).filter (· ≠ "empty")

/-- A row with names, and the columns that are kept, pvlib/iotools/bsrn.py:322-327, 354-357. -/
def named (columns : List String) (row : List Fl) : List (String × Fl) :=
  (columns.zip row).filter fun p => p.1 ≠ "empty" ∧ p.1 ≠ "day" ∧ p.1 ≠ "minute"

/-- BSRN to ISO 19115 coordinates, pvlib/iotools/bsrn.py:271-274. -/
def bsrnLatLon (lat lon : Fl) : Fl × Fl := (lat - 90, lon - 180)

end

end Pvlib.IoTables
