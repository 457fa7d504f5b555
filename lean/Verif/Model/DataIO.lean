import Verif.Base.Text
import Verif.Model.Util

/-!
# Model of `read_dwd`, `read_single_knmi_file` and `read_knmi_dataset` (melodist/data_io.py)

Files are texts.  Simplifications: fields between quotation marks, rows with more fields than the header, columns with a field that is not a number
(respectively a date) and files with repeated column names are outside the model (`unmodelled`).
-/

set_option linter.unusedSectionVars false

namespace Melodist.DataIO

open Text

/-- the lines of a csv file for pandas: empty and blank lines are skipped -/
def csvLines (t : Text) : List Text := (splitBy (· == '\n') t).filter fun l => !(l.dropWhile isBlank).isEmpty

/-- all fields of a column as numbers: an empty field is missing; with `na`, a number equal to it is missing too.  Blanks before and after a number do
not matter, but a field of blanks only is not a number. -/
def numbers? {K : Type} [Field K] [LinearOrder K] (na : Option K) (col : List Text) : Option (List (XF K)) :=
  col.mapM fun t =>
    if t = [] then some .nan
    else (number? (strip t)).map fun v => match na with
      | some m => if v = .fin m then .nan else v
      | none => v

/-- a table: the names and, for each row, the fields (a row may be shorter than the header: missing fields) -/
structure Table where
  names : List String
  rows : List (List Text)

/-- the column `name` (KeyError if there is none) -/
def Table.column (t : Table) (name : String) : Py (List Text) :=
  if name ∈ t.names then .ok (t.rows.map fun r => r.getD (t.names.idxOf name) []) else .error .keyError

/-- `pd.read_csv(sep=…)` of the lines: the first one has the names -/
def csvTable (sep : Char) (trim : Text → Text) (lines : List Text) : Py Table :=
  match lines with
  | [] => .error .valueError
  | h :: rest =>
    let names := (splitBy (· == sep) h).map fun x => String.ofList (trim x)
    let rows := rest.map fun l => (splitBy (· == sep) l).map trim
    if ¬ names.Nodup ∨ (rows.any fun r => names.length < r.length) ∨ (lines.any fun l => l.contains '"') then .error .unmodelled
    else .ok ⟨names, rows⟩

/-- the day of a date given by the digits of year, month, day; ValueError if it does not exist -/
def date (y m d : Text) : Py Int :=
  match toNat? y, toNat? m, toNat? d with
  | some y, some m, some d =>
    let day := daysFromCivil y m d
    if civil day = ((y : Int), (m : Int), (d : Int)) ∧ 1 ≤ y then .ok day else .error .valueError
  | _, _, _ => .error .valueError

/-! ## KNMI -/

/-- data_io.py:324-326 and 334, the `date_parser` for one row followed by `index + 1 h`: `datetime(y, m, d, hh - 1)`, ValueError unless 1 ≤ hh ≤ 24 -/
def knmiTime (yyyymmdd hh : Text) : Py Time := do
  let day ← date (yyyymmdd.take 4) ((yyyymmdd.drop 4).take 2) ((yyyymmdd.drop 6).take 2)
  match toNat? (strip hh) with
  | some h => if 1 ≤ h ∧ h ≤ 24 then .ok (day * DAY + ((h : Int) - 1) * HOUR + HOUR) else .error .valueError
  | none => .error .valueError

section
variable {K : Type} [Field K] [LinearOrder K]

/-- a column of numbers -/
def Table.nums (t : Table) (na : Option K) (name : String) : Py (List (XF K)) := do
  match numbers? na (← t.column name) with
  | some v => .ok v
  | none => .error .unmodelled

/-- data_io.py:310-353 `read_single_knmi_file`.  `pd.datetime` is called for every row; without it `read_csv` ends with a TypeError (pandas 2 calls the
parser with one argument after the first failure), for a file without rows the behaviour is outside the model. -/
def readKnmi (api : PandasApi) (file : Text) : Py (Frame K) := do
  let t ← csvTable ',' (fun x => x.dropWhile isBlank) (csvLines (skipRows (univ file) 31 false))
  if "YYYYMMDD" ∉ t.names ∨ "HH" ∉ t.names then throw .valueError
  if api.pdDatetime = false then throw (if t.rows = [] then .unmodelled else .typeError)
  let days ← t.column "YYYYMMDD"
  let hours ← t.column "HH"
  let index ← (days.zip hours).mapM fun p => knmiTime p.1 p.2
  let temp ← t.nums none "T"
  let precip ← t.nums none "RH"
  let glob ← t.nums none "Q"
  let hum ← t.nums none "U"
  let wind ← t.nums none "FH"
  let ssd ← t.nums none "SQ"
  let precip := precip.map fun x => x / .fin 10
  .ok ⟨index, [("temp", temp.map fun x => x / .fin 10 + .fin (5463 / 20)), ("precip", precip.map fun x => if XF.lt x (.fin 0) then .fin 0 else x),
    ("glob", glob.map fun x => x * .fin 10000 / .fin 3600), ("hum", hum), ("wind", wind.map fun x => x / .fin 10), ("ssd", ssd.map fun x => x * .fin 6)]⟩

/-- `pd.concat([a, b])` of frames with the same columns -/
def concat (a b : Frame K) : Frame K := ⟨a.index ++ b.index, List.zipWith (fun c d => (c.1, c.2 ++ d.2)) a.cols b.cols⟩

/-- data_io.py:356-383 `read_knmi_dataset`; `files` are the texts of the files in the order of `glob.glob` (which is arbitrary) -/
def readKnmiDataset (api : PandasApi) : List Text → Py (Frame K)
  | [] => .ok ⟨[], [("temp", []), ("precip", []), ("glob", []), ("hum", []), ("wind", []), ("ssd", [])]⟩
  | f :: fs => do
    let first ← readKnmi api f
    fs.foldlM (fun ts g => do .ok (concat ts (← readKnmi api g))) first

/-! ## DWD -/

/-- data_io.py:127-136 -/
def dwdNames : List (String × String) :=
  [("LUFTTEMPERATUR", "tmean"), ("LUFTTEMPERATUR_MINIMUM", "tmin"), ("LUFTTEMPERATUR_MAXIMUM", "tmax"), ("NIEDERSCHLAGSHOEHE", "precip"),
    ("GLOBAL_KW_J", "glob"), ("REL_FEUCHTE", "hum"), ("WINDGESCHWINDIGKEIT", "wind"), ("SONNENSCHEINDAUER", "sun_h")]

/-- `str.strip` of a name -/
def stripName (s : String) : String := String.ofList (strip s.toList)

/-- `rename(columns=dict_d)` -/
def dwdName (s : String) : String :=
  match dwdNames.find? fun p => p.1 == s with
  | some p => p.2
  | none => s

/-- the date of a row: `YYYYMMDD` (mode 'd') or `YYYYMMDDHH` (mode 'h', data_io.py:171-178) -/
def dwdTime (hourly : Bool) (t : Text) : Py Time := do
  let day ← date (t.take 4) ((t.drop 4).take 2) ((t.drop 6).take 2)
  if hourly then
    match toNat? ((t.drop 8).take 2) with
    | some h => if h < 24 then .ok (day * DAY + h * HOUR) else .error .valueError
    | none => .error .valueError
  else if t.length = 8 then .ok (day * DAY) else .error .unmodelled

/-- a column of a DWD file: `-999` is missing.  In a column of integers pandas recognises the code only without blanks around it; such columns with a
padded code are outside the model. -/
def dwdColumn (col : List Text) : Py (List (XF K)) :=
  if (col.all fun t => !t.contains '.') ∧ (col.any fun t => strip t = "-999".toList ∧ t ≠ "-999".toList) then .error .unmodelled
  else
    match numbers? (some (-999)) col with
    | some v => .ok v
    | none => .error .unmodelled

/-- data_io.py:189-207: the names without blanks, renamed; other columns dropped; temperatures to Kelvin (the branch for a column `temp` is never taken,
because such a column is dropped before) -/
def dwdConvert (cols : List (String × List (XF K))) : List (String × List (XF K)) :=
  let cols := cols.map fun c => (dwdName (stripName c.1), c.2)
  let cols := cols.filter fun c => (dwdNames.map fun p => p.2).contains c.1
  cols.map fun c => if c.1 = "tmin" ∨ c.1 = "tmax" ∨ c.1 = "tmean" ∨ c.1 = "temp" then (c.1, c.2.map fun x => x + .fin (5463 / 20)) else c

/-- data_io.py:125-209 `read_single_dwd` without the metadata file.  `skipLast` is the argument (`none` = Python's None); the last line of the file is
skipped unless it is None.  Columns that are dropped later are left out at once, so that they may contain any text. -/
def readSingleDwd (file : Text) (mode : String) (skipLast : Option Bool) : Py (Frame K) := do
  let text := univ file
  let ls := lines text
  let ls := if skipLast.isSome then ls.dropLast else ls
  if mode ≠ "d" ∧ mode ≠ "h" then throw .unboundLocalError
  let t ← csvTable ';' id (ls.filter fun l => !(l.dropWhile isBlank).isEmpty)
  if " MESS_DATUM" ∉ t.names then throw .valueError
  let index ← (← t.column " MESS_DATUM").mapM (dwdTime (mode = "h"))
  let kept := t.names.filter fun n => n != " MESS_DATUM" && (dwdNames.map fun p => p.2).contains (dwdName (stripName n))
  let cols ← kept.mapM fun n => do .ok (n, ← dwdColumn (← t.column n))
  .ok ⟨index, dwdConvert cols⟩

/-- `a.join(b, how='outer')`: ValueError for a common column; the times of both, in order (the indexes have no repeated times) -/
def outerJoin (a b : Frame K) : Py (Frame K) :=
  if a.cols.any fun c => b.cols.any fun d => c.1 == d.1 then .error .valueError
  else if ¬ a.index.Nodup ∨ ¬ b.index.Nodup then .error .unmodelled
  else
    let index := if a.index = b.index then a.index else (a.index ++ b.index.filter fun t => !a.index.contains t).insertionSort (· ≤ ·)
    let extend (f : Frame K) := f.cols.map fun c => (c.1, index.map fun t => (Series.at? (f.index.zip c.2) t).getD .nan)
    .ok ⟨index, extend a ++ extend b⟩

/-- data_io.py:211-225 `read_dwd` for one file or a list of files -/
def readDwd (files : List Text) (mode : String) (skipLast : Option Bool) : Py (Frame K) :=
  match files with
  | [] => .error .unboundLocalError
  | f :: fs => do
    let first ← readSingleDwd f mode skipLast
    fs.foldlM (fun data g => do outerJoin data (← readSingleDwd g mode skipLast)) first

end
end Melodist.DataIO
