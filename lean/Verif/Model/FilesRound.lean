import Verif.Model.Smet
import Verif.Model.DataIO
import Verif.Model.CascadeRound

/-!
# Reading files in floating-point arithmetic (melodist/data_io.py)

`read_smet` (27-104), `read_single_dwd` (125-209) and `read_single_knmi_file` (310-353) as in `Model/Smet.lean` and `Model/DataIO.lean`, with the roundings:
`parse t x` is the double that pandas makes of the text `t` whose decimal value is `x`, `fl` rounds the result of an operation.
-/

set_option linter.unusedSectionVars false

namespace Melodist

open Text

variable {K : Type} [Field K] [LinearOrder K]

/-- a number as it is read: the decimal number, made a double -/
def readNumber (parse : Text → K → K) (t : Text) : Option (XF K) := (number? t).map fun v => v.rnd (parse t)

namespace Smet

/-- `[float(x) for x in l]` -/
def floatsR (parse : Text → K → K) : List Text → Py (List (XF K))
  | [] => .ok []
  | x :: xs =>
    match readNumber parse x with
    | some v => do .ok (v :: (← floatsR parse xs))
    | none => .error .valueError

/-- a cell of the table: `na_values=[-999]` -/
def cellR? (parse : Text → K → K) (t : Text) : Option (XF K) := (readNumber parse t).map fun v => if v = .fin (-999) then .nan else v

/-- a line of the table, see `parseRow` -/
def parseRowR (parse : Text → K → K) : List String → List Text → Option (Option Time × List (XF K))
  | [], [] => some (none, [])
  | c :: cs, x :: xs =>
    match parseRowR parse cs xs with
    | none => none
    | some (t, v) =>
      if c = "timestamp" then (time? x).map fun s => (some s, v) else (cellR? parse x).map fun y => (t, y :: v)
  | _, _ => none

/-- all lines of the table -/
def parseRowsR (parse : Text → K → K) (names : List String) : List Text → Option (List (Time × List (XF K)))
  | [] => some []
  | l :: ls =>
    match parseRowR parse names (fields l), parseRowsR parse names ls with
    | some (some t, v), some r => some ((t, v) :: r)
    | _, _ => none

/-- data_io.py:94 `data * multiplier` -/
def scaleR (fl : K → K) (cols : List (String × List (XF K))) (m : List (XF K)) : Py (List (String × List (XF K))) :=
  if cols.length = m.length then .ok (cols.zipWith (fun c k => (c.1, c.2.map fun x => (x * k).rnd fl)) m) else .error .valueError

variable [FloorSemiring K]

/-- data_io.py:27-104 `read_smet`, see `readSmet` -/
def readSmetR (fl : K → K) (parse : Text → K → K) (api : PandasApi) (file : Text) (mode : String) : Py (Pairs × Frame K) := do
  let text := univ file
  let (header, start) ← headerLoop 0 false [] (lines text)
  let columns := (words (← getItem header "fields").toList).map String.ofList
  let multiplier ← floatsR parse (words (← getItem header "units_multiplier").toList)
  match start with
  | none => throw .unmodelled
  | some start =>
    if ¬ columns.Nodup ∨ "timestamp" ∉ columns then throw .valueError
    let ls := (splitBy (· == '\n') (skipRows text start false)).filter fun l => !(fields l).isEmpty
    match parseRowsR parse columns ls with
    | none => throw .unmodelled
    | some rows =>
      let names := columns.filter fun c => c != "timestamp"
      let cols := names.mapIdx fun i c => (c, rows.map fun r => r.2.getD i .nan)
      let cols ← scaleR fl cols (multiplier.drop 1)
      needs api.indexNameDel
      .ok (header, renameCols readD readH mode ⟨rows.map fun r => r.1, cols⟩)

end Smet

namespace DataIO

/-- all fields of a column as numbers, see `numbers?` -/
def numbersR? (parse : Text → K → K) (na : Option K) (col : List Text) : Option (List (XF K)) :=
  col.mapM fun t =>
    if t = [] then some .nan
    else (readNumber parse (strip t)).map fun v => match na with
      | some m => if v = .fin m then .nan else v
      | none => v

/-- a column of numbers -/
def Table.numsR (parse : Text → K → K) (t : Table) (na : Option K) (name : String) : Py (List (XF K)) := do
  match numbersR? parse na (← t.column name) with
  | some v => .ok v
  | none => .error .unmodelled

/-- data_io.py:310-353 `read_single_knmi_file`, see `readKnmi`.  (A column of integers without missing values stays a column of integers until the
division; the product with 10000 is the same as in floating-point arithmetic as long as it is below 2⁵³.) -/
def readKnmiR (fl : K → K) (parse : Text → K → K) (api : PandasApi) (file : Text) : Py (Frame K) := do
  let t ← csvTable ',' (fun x => x.dropWhile isBlank) (csvLines (skipRows (univ file) 31 false))
  if "YYYYMMDD" ∉ t.names ∨ "HH" ∉ t.names then throw .valueError
  if api.pdDatetime = false then throw (if t.rows = [] then .unmodelled else .typeError)
  let days ← t.column "YYYYMMDD"
  let hours ← t.column "HH"
  let index ← (days.zip hours).mapM fun p => knmiTime p.1 p.2
  let temp ← t.numsR parse none "T"
  let precip ← t.numsR parse none "RH"
  let glob ← t.numsR parse none "Q"
  let hum ← t.numsR parse none "U"
  let wind ← t.numsR parse none "FH"
  let ssd ← t.numsR parse none "SQ"
  let precip := precip.map fun x => (x / .fin 10).rnd fl
  .ok ⟨index, [("temp", temp.map fun x => ((x / .fin 10).rnd fl + .fin (fl (5463 / 20))).rnd fl),
    ("precip", precip.map fun x => if XF.lt x (.fin 0) then .fin 0 else x), ("glob", glob.map fun x => ((x * .fin 10000).rnd fl / .fin 3600).rnd fl), ("hum", hum),
    ("wind", wind.map fun x => (x / .fin 10).rnd fl), ("ssd", ssd.map fun x => (x * .fin 6).rnd fl)]⟩

/-- a column of a DWD file, see `dwdColumn` -/
def dwdColumnR (parse : Text → K → K) (col : List Text) : Py (List (XF K)) :=
  if (col.all fun t => !t.contains '.') ∧ (col.any fun t => strip t = "-999".toList ∧ t ≠ "-999".toList) then .error .unmodelled
  else
    match numbersR? parse (some (-999)) col with
    | some v => .ok v
    | none => .error .unmodelled

/-- data_io.py:189-207, see `dwdConvert` -/
def dwdConvertR (fl : K → K) (cols : List (String × List (XF K))) : List (String × List (XF K)) :=
  let cols := cols.map fun c => (dwdName (stripName c.1), c.2)
  let cols := cols.filter fun c => (dwdNames.map fun p => p.2).contains c.1
  cols.map fun c => if c.1 = "tmin" ∨ c.1 = "tmax" ∨ c.1 = "tmean" ∨ c.1 = "temp" then (c.1, c.2.map fun x => (x + .fin (fl (5463 / 20))).rnd fl) else c

/-- data_io.py:125-209 `read_single_dwd`, see `readSingleDwd` -/
def readSingleDwdR (fl : K → K) (parse : Text → K → K) (file : Text) (mode : String) (skipLast : Option Bool) : Py (Frame K) := do
  let text := univ file
  let ls := lines text
  let ls := if skipLast.isSome then ls.dropLast else ls
  if mode ≠ "d" ∧ mode ≠ "h" then throw .unboundLocalError
  let t ← csvTable ';' id (ls.filter fun l => !(l.dropWhile isBlank).isEmpty)
  if " MESS_DATUM" ∉ t.names then throw .valueError
  let index ← (← t.column " MESS_DATUM").mapM (dwdTime (mode = "h"))
  let kept := t.names.filter fun n => n != " MESS_DATUM" && (dwdNames.map fun p => p.2).contains (dwdName (stripName n))
  let cols ← kept.mapM fun n => do .ok (n, ← dwdColumnR parse (← t.column n))
  .ok ⟨index, dwdConvertR fl cols⟩

end DataIO
end Melodist
