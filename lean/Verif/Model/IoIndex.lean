import Verif.Base.Calendar
import Mathlib.Algebra.Order.Floor.Ring
import Mathlib.Data.Rat.Floor

/-! # Model of how `pvlib/iotools` builds the time index of the files it reads

The tables are what `pandas.read_csv` / `read_fwf` deliver: rows of numbers.  Formatting a number with leading zeros and parsing
the result with `strptime` is modelled on the numbers themselves (`Calendar.ofYMD`, `ofYJ`, `ofHM`). -/

namespace Pvlib.IoIndex
open Pvlib.Calendar

/-- Apply `f` to every row; the first exception propagates. (Used for pvlib/iotools/tmy.py:206-230 and the other readers.) -/
def each {α β : Type} (f : α → Except PyErr β) : List α → Except PyErr (List β)
  | [] => .ok []
  | a :: as => match f a with
    | .error e => .error e
    | .ok b => match each f as with
      | .error e => .error e
      | .ok bs => .ok (b :: bs)

/-- Python's `int(x)` of a number: truncation towards zero. (Used for pvlib/iotools/tmy.py:235.) -/
def pyInt (x : ℚ) : ℤ := if 0 ≤ x then ⌊x⌋ else ⌈x⌉

/-- `data.tz_localize(int(meta['TZ'] * 3600))`, pvlib/iotools/tmy.py:235, 475 and pvlib/iotools/epw.py:308: the instants of the
index. -/
def localize (index : List Stamp) (TZ : ℚ) : List ℤ := index.map fun t => instant t (pyInt (TZ * 3600))

/-! ### TMY3 -/

/-- A row of a TMY3 file: date and time of day, hours running to 24. (Used for pvlib/iotools/tmy.py:206-214.) -/
structure Tmy3Row where
  (year month day hour minute : ℕ)

/-- The date a TMY3 row is filed under, pvlib/iotools/tmy.py:206-221: 24:00 is on the next day, 29 February becomes 1 March. -/
def tmy3Date (r : Tmy3Row) : Except PyErr Date :=
  match ofYMD r.year r.month r.day with
  | .error e => .error e
  | .ok d =>
    let d := if r.hour = 24 then d.next else d
    .ok (if d.month = 2 ∧ d.day = 29 then d.next else d)

/-- `dt.replace(year=y)`, pvlib/iotools/tmy.py:225-226. -/
def replaceYear (y : ℕ) (d : Date) : Except PyErr Date := ofYMD y d.month d.day

/-- `data_ymd.iloc[-1] = data_ymd.iloc[-1].replace(year=y)`, pvlib/iotools/tmy.py:226. -/
def replaceLast (y : ℕ) : List Date → Except PyErr (List Date)
  | [] => .error .indexError
  | [d] => match replaceYear y d with
    | .error e => .error e
    | .ok d' => .ok [d']
  | d :: ds => match replaceLast y ds with
    | .error e => .error e
    | .ok ds' => .ok (d :: ds')

/-- The dates of `read_tmy3` before the hours are added, pvlib/iotools/tmy.py:206-226. -/
def tmy3Dates (rows : List Tmy3Row) (coerce_year : Option ℕ) : Except PyErr (List Date) :=
  match each tmy3Date rows with
  | .error e => .error e
  | .ok data_ymd => match coerce_year with
    | none => .ok data_ymd
    | some y => match each (replaceYear y) data_ymd with
      | .error e => .error e
      | .ok data_ymd => replaceLast (y + 1) data_ymd

/-- The naive index of `read_tmy3`, pvlib/iotools/tmy.py:206-230. -/
def tmy3Index (rows : List Tmy3Row) (coerce_year : Option ℕ) : Except PyErr (List Stamp) :=
  match tmy3Dates rows coerce_year with
  | .error e => .error e
  | .ok dates => .ok (List.zipWith (fun d r => stamp d.ordinal (60 * (r.hour % 24) + r.minute)) dates rows)

/-! ### TMY2 -/

/-- The date columns of a TMY2 row: two-digit year, month, day, hour from 1 to 24. (Used for pvlib/iotools/tmy.py:460-471.) -/
structure Tmy2Row where
  (yy month day hour : ℕ)

/-- `datetime.datetime(year, month, day, hour - 1)`, pvlib/iotools/tmy.py:468-471. -/
def tmy2Stamp (year : ℕ) (r : Tmy2Row) : Except PyErr Stamp :=
  match ofYMD year r.month r.day with
  | .error e => .error e
  | .ok d => if 1 ≤ r.hour ∧ r.hour ≤ 24 then .ok (stamp d.ordinal (60 * (r.hour - 1))) else .error .valueError

/-- The naive index of `_read_tmy2`, pvlib/iotools/tmy.py:460-475: the year is taken from the first row.  (A file without rows
raises NameError.) -/
def tmy2Index : List Tmy2Row → Except PyErr (List Stamp)
  | [] => .error .unboundLocal
  | r :: rs => each (tmy2Stamp (r.yy + 1900)) (r :: rs)

/-- `line[a:b]`. (Used for pvlib/iotools/tmy.py:437.) -/
def slice (line : List Char) (a b : ℕ) : List Char := (line.take b).drop a

/-- The values cut from a TMY2 line, pvlib/iotools/tmy.py:425-439: from position `cursor` on, one after the other. -/
def cut (cursor : ℕ) : List ℕ → List Char → List (List Char)
  | [], _ => []
  | w :: ws, line => slice line cursor (cursor + w) :: cut (cursor + w) ws line

/-- The widths and types of the 70 columns of a TMY2 line, pvlib/iotools/tmy.py:370. -/
def tmy2Widths : List (ℕ × Char) :=
  [(2, 'd'), (2, 'd'), (2, 'd'), (2, 'd'), (4, 'd'), (4, 'd'), (4, 'd'), (1, 's'), (1, 'd'), (4, 'd'), (1, 's'), (1, 'd'),
    (4, 'd'), (1, 's'), (1, 'd'), (4, 'd'), (1, 's'), (1, 'd'), (4, 'd'), (1, 's'), (1, 'd'), (4, 'd'), (1, 's'), (1, 'd'),
    (4, 'd'), (1, 's'), (1, 'd'), (2, 'd'), (1, 's'), (1, 'd'), (2, 'd'), (1, 's'), (1, 'd'), (4, 'd'), (1, 's'), (1, 'd'),
    (4, 'd'), (1, 's'), (1, 'd'), (3, 'd'), (1, 's'), (1, 'd'), (4, 'd'), (1, 's'), (1, 'd'), (3, 'd'), (1, 's'), (1, 'd'),
    (3, 'd'), (1, 's'), (1, 'd'), (4, 'd'), (1, 's'), (1, 'd'), (5, 'd'), (1, 's'), (1, 'd'), (10, 'd'), (3, 'd'),
    (1, 's'), (1, 'd'), (3, 'd'), (1, 's'), (1, 'd'), (3, 'd'), (1, 's'), (1, 'd'), (2, 'd'), (1, 's'), (1, 'd')]

/-- The names of the columns of a TMY2 line, pvlib/iotools/tmy.py:371. -/
def tmy2Columns : List String :=
  ["year", "month", "day", "hour", "ETR", "ETRN", "GHI", "GHISource", "GHIUncertainty", "DNI", "DNISource",
    "DNIUncertainty", "DHI", "DHISource", "DHIUncertainty", "GHillum", "GHillumSource", "GHillumUncertainty", "DNillum",
    "DNillumSource", "DNillumUncertainty", "DHillum", "DHillumSource", "DHillumUncertainty", "Zenithlum",
    "ZenithlumSource", "ZenithlumUncertainty", "TotCld", "TotCldSource", "TotCldUncertainty", "OpqCld", "OpqCldSource",
    "OpqCldUncertainty", "DryBulb", "DryBulbSource", "DryBulbUncertainty", "DewPoint", "DewPointSource",
    "DewPointUncertainty", "RHum", "RHumSource", "RHumUncertainty", "Pressure", "PressureSource", "PressureUncertainty",
    "Wdir", "WdirSource", "WdirUncertainty", "Wspd", "WspdSource", "WspdUncertainty", "Hvis", "HvisSource",
    "HvisUncertainty", "CeilHgt", "CeilHgtSource", "CeilHgtUncertainty", "PresentWeather", "Pwat", "PwatSource",
    "PwatUncertainty", "AOD", "AODSource", "AODUncertainty", "SnowDepth", "SnowDepthSource", "SnowDepthUncertainty",
    "LastSnowfall", "LastSnowfallSource", "LastSnowfallUncertaint"]

/-- Latitude or longitude of a TMY2 header: degrees, minutes and a hemisphere letter, pvlib/iotools/tmy.py:399-403. -/
def tmy2Angle (degrees minutes : ℚ) (hemisphere positive : String) : ℚ :=
  (degrees + minutes / 60) * (2 * (if hemisphere = positive then 1 else 0) - 1)

/-! ### EPW -/

/-- The date columns of an EPW row. (Used for pvlib/iotools/epw.py:304-306.) -/
structure EpwRow where
  (year month day hour : ℕ)

/-- One entry of the naive index of `_parse_epw`, pvlib/iotools/epw.py:299-307: hours run from 1 to 24, the minute column is not
used. -/
def epwStamp (coerce_year : Option ℕ) (r : EpwRow) : Except PyErr Stamp :=
  match ofYMD (coerce_year.getD r.year) r.month r.day with
  | .error e => .error e
  | .ok d => if 1 ≤ r.hour ∧ r.hour ≤ 24 then .ok (stamp d.ordinal (60 * (r.hour - 1))) else .error .valueError

/-- The naive index of `_parse_epw`, pvlib/iotools/epw.py:299-309. -/
def epwIndex (rows : List EpwRow) (coerce_year : Option ℕ) : Except PyErr (List Stamp) := each (epwStamp coerce_year) rows

/-! ### SRML -/

/-- One entry of the naive index, pvlib/iotools/srml.py:149-167. -/
def srmlStamp (year : ℕ) (interval_length : ℤ) (r : ℕ × ℤ) : Except PyErr Stamp :=
  let df_time := r.2 - interval_length
  let time := if interval_length = 100 then df_time else if df_time % 100 > 60 then df_time - 40 else df_time
  if time < 0 then .error .valueError
  else match ofYJ year r.1 with
    | .error e => .error e
    | .ok day => match ofHM (time.toNat / 100) (time.toNat % 100) with
      | .error e => .error e
      | .ok minute => .ok (stamp day minute)

/-- The naive index of `_format_index`, pvlib/iotools/srml.py:125-168: rows are day of the year and time as an integer HHMM. -/
def srmlIndex (year : ℕ) (rows : List (ℕ × ℤ)) : Except PyErr (List Stamp) :=
  match rows with
  | a :: b :: _ => each (srmlStamp year (b.2 - a.2)) rows
  | _ => .error (.keyError "1")

/-- The offset of 'Etc/GMT+8' in seconds, pvlib/iotools/srml.py:169. -/
def srmlOffset : ℤ := -8 * 3600

/-! ### Station networks in UTC -/

/-- SURFRAD and raw MIDC: `%Y%j%H%M`, pvlib/iotools/surfrad.py:179-183 and pvlib/iotools/midc.py:151-154 (where the time is one
integer HHMM). -/
def yjhm (year jday hour minute : ℕ) : Except PyErr Stamp :=
  match ofYJ year jday with
  | .error e => .error e
  | .ok day => match ofHM hour minute with
    | .error e => .error e
    | .ok m => .ok (stamp day m)

/-- SOLRAD and MIDC: `%Y%m%d%H%M`, pvlib/iotools/solrad.py:136-140 and pvlib/iotools/midc.py:127-128. -/
def ymdhm (year month day hour minute : ℕ) : Except PyErr Stamp :=
  match ofYMD year month day with
  | .error e => .error e
  | .ok d => match ofHM hour minute with
    | .error e => .error e
    | .ok m => .ok (stamp d.ordinal m)

/-- CRN, pvlib/iotools/crn.py:132-134: date as an integer YYYYMMDD, time as an integer HHMM without leading zeros. -/
def crnStamp (utc_date utc_time : ℕ) : Except PyErr Stamp :=
  if 10000000 ≤ utc_date ∧ utc_date < 100000000 ∧ utc_time < 10000 then
    ymdhm (utc_date / 10000) (utc_date / 100 % 100) (utc_date % 100) (utc_time / 100) (utc_time % 100)
  else .error .valueError

/-- BSRN, pvlib/iotools/bsrn.py:250-252, 324-325: day and minute columns count from the start of the month of the file. -/
def bsrnStamp (year month day minute : ℕ) : Except PyErr Stamp :=
  match ofYMD year month 1 with
  | .error e => .error e
  | .ok d => .ok (1440 * d.ordinal + 1440 * (day - 1) + minute)

end Pvlib.IoIndex
