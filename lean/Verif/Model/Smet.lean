import Verif.Base.Text
import Verif.Model.Util

/-!
# Model of the SMET functions of melodist/data_io.py

`write_smet` (228-307) and `read_smet` (27-104).  A file is the text written to it.  Not modelled: encodings, other exceptions of the operating system.
-/

set_option linter.unusedSectionVars false

namespace Melodist.Smet

open Text

/-- the pairs of a dict or of a rename table -/
abbrev Pairs := List (String × String)

/-- `rename(columns=table)`: names without an entry are kept -/
def rename (table : Pairs) (name : String) : String :=
  match table.find? fun p => p.1 == name with
  | some p => p.2
  | none => name

/-- data_io.py:48-56 (`read_smet`, daily data) -/
def readD : Pairs :=
  [("TA", "tmean"), ("TMAX", "tmax"), ("TMIN", "tmin"), ("PSUM", "precip"), ("ISWR", "glob"), ("RH", "hum"), ("VW", "wind")]

/-- data_io.py:59 (`read_smet`, hourly data) -/
def readH : Pairs := [("TA", "temp"), ("PSUM", "precip"), ("ISWR", "glob"), ("RH", "hum"), ("VW", "wind")]

/-- data_io.py:245-253 (`write_smet`, daily data) -/
def writeD : Pairs :=
  [("tmean", "TA"), ("tmin", "TMAX"), ("tmax", "TMIN"), ("precip", "PSUM"), ("glob", "ISWR"), ("hum", "RH"), ("wind", "VW")]

/-- data_io.py:256 (`write_smet`, hourly data) -/
def writeH : Pairs := [("temp", "TA"), ("precip", "PSUM"), ("glob", "ISWR"), ("hum", "RH"), ("wind", "VW")]

/-- `d[key] = value` for a dict in insertion order -/
def setItem (d : Pairs) (key value : String) : Pairs :=
  if d.any fun p => p.1 == key then d.map fun p => if p.1 == key then (key, value) else p else d ++ [(key, value)]

/-- `d[key]` -/
def getItem (d : Pairs) (key : String) : Py String :=
  match d.find? fun p => p.1 == key with
  | some p => .ok p.2
  | none => .error .keyError

section
variable {K : Type} [Field K] [LinearOrder K]

/-- data_io.py:258-262: the renaming of the columns according to `mode` (none for an unknown mode) -/
def renameCols (d h : Pairs) (mode : String) (f : Frame K) : Frame K :=
  if mode = "d" then { f with cols := f.cols.map fun c => (rename d c.1, c.2) }
  else if mode = "h" then { f with cols := f.cols.map fun c => (rename h c.1, c.2) }
  else f

/-- data_io.py:264-270 (`check_nan`): `data.sum()` skips missing values, so the columns dropped are those whose sum is NaN -/
def dropNan (f : Frame K) : Frame K :=
  let datasIn := (f.cols.filter fun c => !(sumSkip c.2).isNan).map fun c => c.1
  let drop := (f.cols.map fun c => c.1).filter fun name => !datasIn.contains name
  { f with cols := f.cols.filter fun c => !drop.contains c.1 }

/-- the columns of the table printed by `to_string`, as texts -/
abbrev Columns := List (String × List Text)

/-- `data['timestamp'] = […]` -/
def setColumn (c : Columns) (name : String) (v : List Text) : Columns :=
  if c.any fun x => x.1 == name then c.map fun x => if x.1 == name then (name, v) else x else c ++ [(name, v)]

/-- `cols[-1:] + cols[:-1]` -/
def rotate (c : Columns) : Columns := c.getLast?.toList ++ c.dropLast

/-- one line of `to_string`: before each cell there are `layout` blanks, and one more between cells -/
def rowText (layout : Nat → Nat) : Nat → List Text → Text
  | _, [] => []
  | 0, x :: xs => List.replicate (layout 0) ' ' ++ x ++ rowText layout 1 xs
  | k + 1, x :: xs => ' ' :: List.replicate (layout (k + 1)) ' ' ++ x ++ rowText layout (k + 2) xs

/-- the lines joined by line ends -/
def joinLines : List Text → Text
  | [] => []
  | [x] => x
  | x :: xs => x ++ '\n' :: joinLines xs

/-- `to_string(header=False, index=False)`.  `layout row column` is the number of extra blanks before a cell (pandas pads the columns to a common
width).  A table without rows is printed as the text `Empty DataFrame …`. -/
def toString (layout : Nat → Nat → Nat) (c : Columns) (n : Nat) : Text :=
  if n = 0 then
    "Empty DataFrame\nColumns: [".toList ++ (", ".intercalate (c.map fun x => x.1)).toList ++ "]\nIndex: []".toList
  else joinLines ((List.range n).map fun r => rowText (layout r) 0 (c.map fun x => x.2.getD r []))

variable [FloorSemiring K]

/-- What a call of `write_smet` leaves behind: the content of the file (`none`: not opened), the caller's metadata dict, the exception. -/
structure Written where
  file : Option Text
  metadata : Pairs
  exn : Option PyErr

/-- one header line -/
def headerLine (p : String × String) : Text := p.1.toList ++ ' ' :: '=' :: ' ' :: p.2.toList ++ ['\n']

/-- the text of the file -/
def fileText (metadata : Pairs) (data : Text) : Text :=
  "SMET 1.1 ASCII\n".toList ++ "[HEADER]\n".toList ++ (metadata.map headerLine).flatten ++ "[DATA]\n".toList ++ data

/-- the table that is printed: the cells of the columns as texts (missing values replaced by `nodata`), the timestamps, the timestamps in front -/
def table (nodata : XF K) (f : Frame K) (stamps : List Text) : Columns :=
  rotate (setColumn (f.cols.map fun c => (c.1, c.2.map fun x => fixed2 (if x.isNan then nodata else x))) "timestamp" stamps)

/-- data_io.py:228-307 `write_smet`.  The file is opened (and emptied) before the format of the timestamps is chosen; for an unknown mode that
format is an unbound variable, which is noticed for the first row.  The caller's dict gets the entries `fields` and `units_multiplier`. -/
def writeSmet (layout : Nat → Nat → Nat) (f : Frame K) (metadata : Pairs) (nodata : XF K := .fin (-999)) (mode : String := "h")
    (checkNan : Bool := true) : Written :=
  let f := renameCols writeD writeH mode f
  let f := if checkNan then dropNan f else f
  if mode ≠ "d" ∧ mode ≠ "h" ∧ f.index ≠ [] then ⟨some [], metadata, some .unboundLocalError⟩
  else
    let c := table nodata f (f.index.map fun t => if mode = "d" then stampDay t else stampHour t)
    let fields := String.ofList (spaced (c.map fun x => x.1.toList))
    let metadata := setItem metadata "fields" fields
    let metadata := setItem metadata "units_multiplier" (String.ofList (List.replicate (words fields.toList).length ['1', ' ']).flatten)
    ⟨some (fileText metadata (toString layout c f.index.length)), metadata, none⟩

/-- the loop over the lines of the header, data_io.py:66-78: the header entries and the number of the line after `[DATA]`; IndexError for a header line
without `=` -/
def headerLoop : Nat → Bool → Pairs → List Text → Py (Pairs × Option Nat)
  | _, _, header, [] => .ok (header, none)
  | k, inHeader, header, l :: ls =>
    if strip l = "[HEADER]".toList then headerLoop (k + 1) true header ls
    else if strip l = "[DATA]".toList then .ok (header, some (k + 1))
    else if inHeader then
      match splitBy (· == '=') l with
      | a :: b :: _ => headerLoop (k + 1) true (setItem header (String.ofList (strip a)) (String.ofList (strip b))) ls
      | _ => .error .indexError
    else headerLoop (k + 1) false header ls

/-- `[float(x) for x in l]` -/
def floats : List Text → Py (List (XF K))
  | [] => .ok []
  | x :: xs =>
    match number? x with
    | some v => do .ok (v :: (← floats xs))
    | none => .error .valueError

/-- a cell of the table: `na_values=[-999]` -/
def cell? (t : Text) : Option (XF K) := (number? t).map fun v => if v = .fin (-999) then .nan else v

/-- a line of the table: the timestamp and the cells in the order of the columns (`unmodelled`: another number of fields, or a field that is not a
number respectively a timestamp) -/
def parseRow : List String → List Text → Option (Option Time × List (XF K))
  | [], [] => some (none, [])
  | c :: cs, x :: xs =>
    match parseRow cs xs with
    | none => none
    | some (t, v) =>
      if c = "timestamp" then (time? x).map fun s => (some s, v) else (cell? x).map fun y => (t, y :: v)
  | _, _ => none

/-- all lines of the table -/
def parseRows (names : List String) : List Text → Option (List (Time × List (XF K)))
  | [] => some []
  | l :: ls =>
    match parseRow names (fields l), parseRows names ls with
    | some (some t, v), some r => some ((t, v) :: r)
    | _, _ => none

/-- `data * multiplier` with a list: column by column; ValueError unless there is one factor per column -/
def scale (cols : List (String × List (XF K))) (m : List (XF K)) : Py (List (String × List (XF K))) :=
  if cols.length = m.length then .ok (cols.zipWith (fun c k => (c.1, c.2.map fun x => x * k)) m) else .error .valueError

/-- data_io.py:27-104 `read_smet`: header and table.  `pd.read_table(names=…, index_col='timestamp')` needs different names, one of them `timestamp`;
lines that are empty or blank are skipped.  Files without `[DATA]` are outside the model. -/
def readSmet (api : PandasApi) (file : Text) (mode : String) : Py (Pairs × Frame K) := do
  let text := univ file
  let (header, start) ← headerLoop 0 false [] (lines text)
  let columns := (words (← getItem header "fields").toList).map String.ofList
  let multiplier ← floats (words (← getItem header "units_multiplier").toList)
  match start with
  | none => throw .unmodelled
  | some start =>
    if ¬ columns.Nodup ∨ "timestamp" ∉ columns then throw .valueError
    let ls := (splitBy (· == '\n') (skipRows text start false)).filter fun l => !(fields l).isEmpty
    match parseRows columns ls with
    | none => throw .unmodelled
    | some rows =>
      let names := columns.filter fun c => c != "timestamp"
      let cols := names.mapIdx fun i c => (c, rows.map fun r => r.2.getD i .nan)
      let cols ← scale cols (multiplier.drop 1)
      needs api.indexNameDel
      .ok (header, renameCols readD readH mode ⟨rows.map fun r => r.1, cols⟩)

end

end Melodist.Smet
