import Verif.Model.DataIO

/-!
# Model of the metadata part of `read_dwd` (melodist/data_io.py:139-150) and of the whole `read_dwd` (data_io.py:107-225)

Simplifications as in `Verif.Model.DataIO`; moreover the texts that pandas takes for missing values (`NA`, `null`, …) or truth values, and columns that are
neither all numbers nor contain a letter that occurs in no number are outside the model (`unmodelled`).
-/

set_option linter.unusedSectionVars false

namespace Melodist.DataIO

open Text

/-- an entry of the header -/
inductive MetaCell (K : Type) where
  | missing
  | number (x : XF K)
  | text (t : Text)
  deriving DecidableEq

/-- the header returned by `read_dwd` (data_io.py:144-150) -/
structure DwdHeader (K : Type) where
  stationsId : MetaCell K
  stationsname : MetaCell K
  breite : MetaCell K
  laenge : MetaCell K
  deriving DecidableEq

/-- texts that pandas reads as missing or as truth values -/
def specialTexts : List Text :=
  ["#N/A", "#N/A N/A", "#NA", "-1.#IND", "-1.#QNAN", "-NaN", "-nan", "1.#IND", "1.#QNAN", "<NA>", "N/A", "NA", "NULL", "NaN", "None", "n/a", "nan", "null",
    "True", "TRUE", "true", "False", "FALSE", "false"].map String.toList

/-- a letter that occurs in no spelling of a number (`1e5`, `inf`, `Infinity`, `nan`) -/
def textLetter (c : Char) : Bool := c.isAlpha && !("aAeEfFiInNtTyY".toList.contains c)

section
variable {K : Type} [Field K] [LinearOrder K]

/-- row `k` of a column: numbers if all fields are numbers or empty, texts otherwise; an empty field is missing -/
def metaCell (col : List Text) (k : Nat) : Py (MetaCell K) :=
  match numbers? (K := K) none col with
  | some v =>
    match v.getD k .nan with
    | .nan => .ok .missing
    | x => .ok (.number x)
  | none =>
    if col.any fun t => t.any textLetter then .ok (if col.getD k [] = [] then .missing else .text (col.getD k []))
    else .error .unmodelled

/-- `DataFrame.last_valid_index()`: the last row with a field that is not missing -/
def lastValid (rows : List (List Text)) : Option Nat :=
  ((List.range rows.length).filter fun i => (rows.getD i []).any fun t => !t.isEmpty).getLast?

/-- column number `j` -/
def nthColumn (rows : List (List Text)) (j : Nat) : List Text := rows.map fun r => r.getD j []

/-- data_io.py:139-150: the table with the names stripped; `meta.Stations_id` and `meta.Stationsname` are AttributeErrors if there is no such column,
`[None]` is a KeyError, `iloc[…, 2]` and `iloc[…, 3]` are IndexErrors if there are not so many columns -/
def readDwdMeta (file : Text) : Py (DwdHeader K) := do
  let t ← csvTable ';' id (csvLines (univ file))
  let names := t.names.map stripName
  if ¬ names.Nodup ∨ (t.rows.any fun r => r.any specialTexts.contains) then throw .unmodelled
  if "Stations_id" ∉ names then throw .attributeError
  match lastValid t.rows with
  | none => throw .keyError
  | some k =>
    let id ← metaCell (nthColumn t.rows (names.idxOf "Stations_id")) k
    if "Stationsname" ∉ names then throw .attributeError
    let name ← metaCell (nthColumn t.rows (names.idxOf "Stationsname")) k
    if names.length ≤ 2 then throw .indexError
    let lat ← metaCell (nthColumn t.rows 2) k
    if names.length ≤ 3 then throw .indexError
    let lon ← metaCell (nthColumn t.rows 3) k
    .ok ⟨id, name, lat, lon⟩

/-- data_io.py:125-209 `read_single_dwd`: the metadata file is read first -/
def readSingleDwdFull (file metadata : Text) (mode : String) (skipLast : Option Bool) : Py (DwdHeader K × Frame K) := do
  let header ← readDwdMeta metadata
  let data ← readSingleDwd file mode skipLast
  .ok (header, data)

/-- data_io.py:211-225 `read_dwd` for one file or a list of files -/
def readDwdFull (files : List Text) (metadata : Text) (mode : String) (skipLast : Option Bool) : Py (DwdHeader K × Frame K) :=
  match files with
  | [] => .error .unboundLocalError
  | f :: fs => do
    let first ← readSingleDwdFull f metadata mode skipLast
    fs.foldlM (fun acc g => do
      let r ← readSingleDwdFull g metadata mode skipLast
      .ok (r.1, ← outerJoin acc.2 r.2)) first

end
end Melodist.DataIO
