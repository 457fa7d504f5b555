import Verif.Base.Text
import Verif.Model.CascadeHeap
import Verif.Model.StationStatistics
import Mathlib.Algebra.Order.Round
import Mathlib.Data.List.Sort

/-!
# Model of JSON export and import, melodist/stationstatistics.py:194-288

`to_json` and `from_json` of the class `StationStatistics`.  The text of a JSON file is represented by the tree it denotes: Python's `json.dumps`
followed by `json.load` gives back the same tree (numbers are written with `repr`, and NaN and infinities as `NaN`, `Infinity`).

pandas' `to_json` writes numbers with 10 decimals and missing or infinite values as `null`.  Simplifications: ties are rounded upwards; the special
format for numbers below 1e-15 or above 1e16 is not modelled; integers, booleans and floats with the same value are not distinguished in tables.
Names of series are not modelled (the values of `month_hour_precip_mean` come from the column `hum`).
-/

set_option linter.unusedSectionVars false

namespace Melodist

/-- a JSON value as written to the file; numbers may be NaN or infinite -/
inductive Json (K : Type) where
  | null
  | bool (b : Bool)
  | num (x : XF K)
  | arr (l : List (Json K))
  | obj (l : List (String × Json K))

/-- what `json.load` with `object_hook` returns: dictionaries may have been replaced by `CascadeStatistics` objects -/
inductive Loaded (K : Type) where
  | null
  | bool (b : Bool)
  | num (x : XF K)
  | arr (l : List (Loaded K))
  | obj (l : List (String × Loaded K))
  | casc (s : CascStats K)

/-- text of an integer label -/
def labelText (k : Int) : String :=
  String.ofList (if k < 0 then '-' :: Text.ofNat k.natAbs else Text.ofNat k.natAbs)

/-- the integer denoted by a label (`convert_axes` of `pd.read_json`), if it is one -/
def labelInt? (s : String) : Option Int :=
  match s.toList with
  | '-' :: t => (Text.toNat? t).map fun n : Nat => -(n : Int)
  | t => (Text.toNat? t).map fun n : Nat => (n : Int)

/-- the value of key `k` in a dictionary (files with the same key twice are not considered) -/
def field? {V : Type} (k : String) : List (String × V) → Option V
  | [] => none
  | (k', v) :: r => if k' = k then some v else field? k r

section
variable {K : Type} [Field K] [LinearOrder K] [IsStrictOrderedRing K] [FloorRing K]

/-! ## Export -/

/-- `double_precision=10` of pandas' `to_json` -/
def round10 (x : K) : K := (round (x * 10 ^ 10) : K) / 10 ^ 10

/-- one float in pandas' `to_json` -/
def cellJson : XF K → Json K
  | .fin x => .num (.fin (round10 x))
  | _ => .null

/-- `Series.to_json` (stationstatistics.py:204-208): values by label, which have to be unique -/
def seriesJson (l : List (Int × XF K)) : Py (Json K) :=
  if (l.map Prod.fst).Nodup then .ok (.obj (l.map fun r => (labelText r.1, cellJson r.2))) else .error .valueError

/-- `DataFrame.to_json` of a mean course: for each month the values by hour -/
def courseJson (c : MeanCourse K) : Py (Json K) :=
  if c.months.Nodup ∧ c.hours.Nodup then
    .ok (.obj (c.months.map fun m => (labelText m, .obj (c.hours.map fun h => (labelText h, cellJson (c.val m h))))))
  else .error .valueError

/-- one column of a table whose rows are numbered 0, 1, ... -/
def rowsJson (l : List (Json K)) : Json K := .obj (l.zipIdx.map fun e => (labelText e.2, e.1))

/-- `month_hour_precip_mean.reset_index()` and `to_json` (stationstatistics.py:205-208) -/
def tableJson (t : CatMeans K) : Json K :=
  .obj [("level_0", rowsJson (t.map fun r => .num (.fin (r.1.1 : K)))), ("level_1", rowsJson (t.map fun r => .num (.fin (r.1.2.1 : K)))),
    ("level_2", rowsJson (t.map fun r => .bool r.1.2.2)), ("hum", rowsJson (t.map fun r => cellJson r.2))]

/-- `DataFrame.to_json` of a frame with two columns; the columns of a frame have the same labels -/
def pairJson (n1 n2 : String) (a b : List (Int × XF K)) : Py (Json K) :=
  if a.map Prod.fst = b.map Prod.fst then do .ok (.obj [(n1, ← seriesJson a), (n2, ← seriesJson b)]) else .error .unmodelled

/-- `tolist()` of a nested array -/
def nestedJson : Nested K → Json K
  | .num x => .num x
  | .list l => .arr (nestedList l)
where
  nestedList : List (Nested K) → List (Json K)
    | [] => []
    | x :: r => nestedJson x :: nestedList r

/-- `CascadeStatistics.__dict__` (stationstatistics.py:209-210), the arrays as lists (stationstatistics.py:211-212) -/
def cascJson (s : CascStats K) : Json K :=
  .obj [("p01", nestedJson (matList s.p01)), ("p10", nestedJson (matList s.p10)), ("pxx", nestedJson (matList s.pxx)),
    ("wxx", nestedJson (.list ((List.finRange 7).map fun k => matList (s.wxx k)))),
    ("threshold", nestedJson (vecList s.threshold)), ("percentile", .num (.fin s.percentile))]

/-- an entry of `precip.stats` -/
def optionsJson : CascOptions K → Py (Json K)
  | .one s => .ok (cascJson s)
  | .many l => .ok (.arr (l.map cascJson))
  | .other => .error .unmodelled

/-- a number or None -/
def optNumJson : Option K → Json K
  | none => .null
  | some x => .num (.fin x)

/-- an object or None -/
def optJson {α : Type} (f : α → Py (Json K)) : Option α → Py (Json K)
  | none => .ok .null
  | some x => f x

/-! ## Import -/

/-- a number or a nested list of numbers -/
def Loaded.nested? : Loaded K → Option (Nested K)
  | .num x => some (.num x)
  | .arr l => (nestedList? l).map .list
  | _ => none
where
  nestedList? : List (Loaded K) → Option (List (Nested K))
    | [] => some []
    | x :: r => do
      let y ← x.nested?
      let l ← nestedList? r
      some (y :: l)

/-- the dictionary handed to `CascadeStatistics.from_dict`; entries that are not (nested lists of) numbers are outside the model -/
def cascDict (l : List (String × Loaded K)) : Py (CascDict K) := do
  let entry (key : String) : Py (Option (Nested K)) :=
    match field? key l with
    | none => .ok none
    | some v =>
      match v.nested? with
      | none => .error .unmodelled
      | some x => .ok (some x)
  let p01 ← entry "p01"
  let p10 ← entry "p10"
  let pxx ← entry "pxx"
  let wxx ← entry "wxx"
  let threshold ← entry "threshold"
  let percentile ← match field? "percentile" l with
    | none => .ok none
    | some (.num (.fin x)) => .ok (some x)
    | some _ => .error .unmodelled
  .ok {
    arrays := fun key =>
      if key = "p01" then p01
      else if key = "p10" then p10
      else if key = "pxx" then pxx
      else if key = "wxx" then wxx
      else if key = "threshold" then threshold
      else none
    percentile := percentile }

/-- stationstatistics.py:236-240 `json_decoder` -/
def jsonDecoder (l : List (String × Loaded K)) : Py (Loaded K) :=
  if (field? "p01" l).isSome ∧ (field? "pxx" l).isSome then do .ok (.casc (← CascStats.fromDict (← cascDict l)))
  else .ok (.obj l)

/-- stationstatistics.py:242-243 `json.load(f, object_hook=json_decoder)`: the hook sees every dictionary, inner ones first -/
def jsonLoad : Json K → Py (Loaded K)
  | .null => .ok .null
  | .bool b => .ok (.bool b)
  | .num x => .ok (.num x)
  | .arr l => do .ok (.arr (← loadList l))
  | .obj l => do jsonDecoder (← loadFields l)
where
  loadList : List (Json K) → Py (List (Loaded K))
    | [] => .ok []
    | x :: r => do
      let y ← jsonLoad x
      let l ← loadList r
      .ok (y :: l)
  loadFields : List (String × Json K) → Py (List (String × Loaded K))
    | [] => .ok []
    | (k, x) :: r => do
      let y ← jsonLoad x
      let l ← loadFields r
      .ok ((k, y) :: l)

/-- `d[key]` for the dictionary read from the file; the value is expected to be a dictionary again -/
def groupOf (d : Loaded K) (key : String) : Py (List (String × Loaded K)) :=
  match d with
  | .obj l =>
    match field? key l with
    | none => .error .keyError
    | some (.obj g) => .ok g
    | some _ => .error .unmodelled
  | _ => .error .unmodelled

/-- the number (or None) that `bunch.update(group)` gives to an attribute which was None before -/
def numField (g : List (String × Loaded K)) (key : String) : Py (Option K) :=
  match field? key g with
  | none => .ok none
  | some .null => .ok none
  | some (.num (.fin x)) => .ok (some x)
  | some _ => .error .unmodelled

/-- a number in a table -/
def cellOfJson : Loaded K → Py (XF K)
  | .null => .ok .nan
  | .num x => .ok x
  | _ => .error .unmodelled

/-- one column of a table, or a series: values by integer label, sorted by label (`sort_index`) -/
def readLabels (v : Loaded K) : Py (List (Int × Loaded K)) :=
  match v with
  | .obj l =>
    match l.mapM fun e => (labelInt? e.1).map fun k => (k, e.2) with
    | none => .error .unmodelled
    | some rows => .ok (rows.insertionSort fun a b => a.1 ≤ b.1)
  | _ => .error .unmodelled

/-- a column of numbers -/
def readColumn (v : Loaded K) : Py (List (Int × XF K)) := do
  (← readLabels v).mapM fun r => do .ok (r.1, ← cellOfJson r.2)

/-- `pd.read_json(…, typ='series').sort_index()` (stationstatistics.py:253-257).  If all values are numbers above 31536000 (or missing) pandas takes
them for timestamps; this is outside the model, except if all are missing (pandas gives NaT). -/
def readSeries (v : Loaded K) : Py (List (Int × XF K)) := do
  let l ← readColumn v
  if (l.all fun r => match r.2 with | .fin x => decide (31536000 < x) | _ => true) && l.any fun r => !r.2.isNan then .error .unmodelled
  else .ok l

/-- the columns of a table -/
def columnsOf (v : Loaded K) : Py (List (String × Loaded K)) :=
  match v with
  | .obj l => .ok l
  | _ => .error .unmodelled

/-- the months 1..12, `np.arange(1, 12 + 1)` -/
def months12 : List Int := (List.range 12).map fun k : Nat => (k : Int) + 1

/-- `frame[month]`: the column of a month -/
def pickMonth (cols : List (String × List (Int × XF K))) (m : Int) : Py (Int × List (Int × XF K)) :=
  match field? (labelText m) cols with
  | none => .error .keyError
  | some c => .ok (m, c)

/-- a mean course: `pd.read_json(…, typ='frame').sort_index()[np.arange(1, 12 + 1)]` (stationstatistics.py:259-267, 279-286); KeyError if the column of a
month is missing.  Columns with different rows are outside the model. -/
def readCourse (v : Loaded K) : Py (MeanCourse K) := do
  let cols ← (← columnsOf v).mapM fun e => do .ok (e.1, ← readColumn e.2)
  let chosen ← months12.mapM (pickMonth cols)
  let hours := ((chosen.head?.map Prod.snd).getD []).map Prod.fst
  if chosen.all fun c => c.2.map Prod.fst == hours then
    .ok { months := months12, hours := hours,
          val := fun m h => (((chosen.lookup m).getD []).lookup h).getD .nan }
  else .error .unmodelled

/-- integer label in a column -/
def intOfJson : Loaded K → Py Int
  | .num (.fin x) => if ((⌊x⌋ : Int) : K) = x then .ok ⌊x⌋ else .error .unmodelled
  | _ => .error .unmodelled

/-- truth value in a column -/
def boolOfJson : Loaded K → Py Bool
  | .bool b => .ok b
  | _ => .error .unmodelled

/-- stationstatistics.py:269-277: `pd.read_json(…).sort_index()`, `set_index`, `squeeze`, `rename_axis`.  A table with one single row is squeezed to a
number, which has no `rename_axis`. -/
def readTable (v : Loaded K) : Py (CatMeans K) := do
  let cols ← columnsOf v
  let column (key : String) : Py (List (Int × Loaded K)) :=
    match field? key cols with
    | none => .error .keyError
    | some c => readLabels c
  let months ← (← column "level_0").mapM fun r => intOfJson r.2
  let hours ← (← column "level_1").mapM fun r => intOfJson r.2
  let wet ← (← column "level_2").mapM fun r => boolOfJson r.2
  match cols.filter fun e => !(["level_0", "level_1", "level_2"].contains e.1) with
  | [(_, c)] => do
    let vals ← readColumn c
    if vals.length = 1 then .error .attributeError
    else .ok (((months.zip (hours.zip wet)).zip vals).map fun e => (e.1, e.2.2))
  | _ => .error .unmodelled

/-- two columns of a frame, `pd.read_json(…).sort_index()` (stationstatistics.py:279-283) -/
def readPair (n1 n2 : String) (v : Loaded K) : Py (List (Int × XF K) × List (Int × XF K)) := do
  let cols ← columnsOf v
  match field? n1 cols, field? n2 cols with
  | some a, some b => do .ok (← readColumn a, ← readColumn b)
  | _, _ => .error .unmodelled

/-- an attribute that may be None -/
def optField {α : Type} (read : Loaded K → Py α) (g : List (String × Loaded K)) (key : String) : Py (Option α) :=
  match field? key g with
  | none => .ok none
  | some .null => .ok none
  | some v => do .ok (some (← read v))

/-- a list of integers -/
def readSeason : Loaded K → Py (List Int)
  | .arr ms => ms.mapM intOfJson
  | _ => .error .unmodelled

/-- `precip.months`: a list of lists of integers -/
def readMonths : Loaded K → Py (List (List Int))
  | .arr l => l.mapM readSeason
  | _ => .error .unmodelled

/-- a `CascadeStatistics` object -/
def readCasc : Loaded K → Py (CascStats K)
  | .casc s => .ok s
  | _ => .error .unmodelled

/-- an entry of `precip.stats` -/
def readOptions : Loaded K → Py (CascOptions K)
  | .casc s => .ok (.one s)
  | .arr l => do .ok (.many (← l.mapM readCasc))
  | _ => .error .unmodelled

/-- `precip.stats` -/
def readStats : Loaded K → Py (List (CascOptions K))
  | .arr l => l.mapM readOptions
  | _ => .error .unmodelled

end

noncomputable section

/-- a frame of `glob` with two columns; if the file has none, the default remains.  (None in the file would be None in the object: outside the model.) -/
def pairField (n1 n2 : String) (g : List (String × Loaded ℝ)) (key : String) (dflt : List (Int × XF ℝ) × List (Int × XF ℝ)) :
    Py (List (Int × XF ℝ) × List (Int × XF ℝ)) :=
  match field? key g with
  | none => .ok dflt
  | some .null => .error .unmodelled
  | some v => readPair n1 n2 v

/-- stationstatistics.py:194-224 `to_json`: the content of the file.  Position, time zone and data are not exported. -/
def StatObj.toJson (s : StatObj) : Py (Json ℝ) := do
  let maxDelta ← optJson seriesJson s.temp.maxDelta
  let course ← optJson courseJson s.temp.course
  let stats ← optJson (fun l => do .ok (.arr (← l.mapM optionsJson))) s.precip.stats
  let table ← optJson (fun t => .ok (tableJson t)) s.hum.table
  let angstroem ← pairJson "a" "b" s.glob.angA s.glob.angB
  let bristcamp ← pairJson "a" "c" s.glob.bcA s.glob.bcC
  let globCourse ← optJson courseJson s.glob.course
  .ok (.obj [
    ("temp", .obj [("max_delta", maxDelta), ("mean_course", course)]),
    ("wind", .obj [("a", optNumJson s.wind.a), ("b", optNumJson s.wind.b), ("t_shift", optNumJson s.wind.tShift)]),
    ("precip", .obj [
      ("months", match s.precip.months with
        | none => .null
        | some l => .arr (l.map fun ms => .arr (ms.map fun m : Int => .num (.fin (m : ℝ))))),
      ("stats", stats)]),
    ("hum", .obj [("a0", optNumJson s.hum.a0), ("a1", optNumJson s.hum.a1), ("kr", optNumJson s.hum.kr), ("month_hour_precip_mean", table)]),
    ("glob", .obj [("angstroem", angstroem), ("bristcamp", bristcamp), ("mean_course", globCourse)])])

/-- stationstatistics.py:226-288 `from_json`, for the content of a file -/
def StatObj.fromJson (j : Json ℝ) : Py StatObj := do
  let d ← jsonLoad j
  let temp ← groupOf d "temp"
  let hum ← groupOf d "hum"
  let precip ← groupOf d "precip"
  let wind ← groupOf d "wind"
  let glob ← groupOf d "glob"
  let s : StatObj := {}
  let maxDelta ← optField readSeries temp "max_delta"
  let course ← optField readCourse temp "mean_course"
  let table ← optField readTable hum "month_hour_precip_mean"
  let ang ← pairField "a" "b" glob "angstroem" (s.glob.angA, s.glob.angB)
  let bc ← pairField "a" "c" glob "bristcamp" (s.glob.bcA, s.glob.bcC)
  let globCourse ← optField readCourse glob "mean_course"
  .ok {
    temp := { maxDelta := maxDelta, course := course }
    hum := { a0 := ← numField hum "a0", a1 := ← numField hum "a1", kr := ← numField hum "kr", table := table }
    precip := { months := ← optField readMonths precip "months", stats := ← optField readStats precip "stats" }
    wind := { a := ← numField wind "a", b := ← numField wind "b", tShift := ← numField wind "t_shift" }
    glob := { angA := ang.1, angB := ang.2, bcA := bc.1, bcC := bc.2, course := globCourse } }

end

end Melodist
