import Verif.Base.Pandas
import Mathlib.Data.List.Sort

/-!
# Model of melodist/util/util.py (everything except the physics in `Verif/Model/UtilPhys.lean`)

`melodist.util` denotes the module melodist/util/util.py: melodist/util/__init__.py is empty, but
`from .humidity import *` (melodist/__init__.py:25) rebinds the attribute `melodist.util` to the module imported by
`import melodist.util.util as util` (humidity.py:25).
-/

set_option linter.unusedSectionVars false

namespace Melodist

/-- A `pd.DataFrame` with a `DatetimeIndex` and float columns (columns have the length of the index). -/
structure Frame (K : Type) where
  index : List Time
  cols : List (String × List (XF K))
deriving DecidableEq

namespace Frame
variable {K : Type}

/-- `name in df` -/
def has (f : Frame K) (name : String) : Bool := f.cols.any fun c => c.1 == name

/-- `df[name]` / `df.name` as a series (`none`: the column does not exist) -/
def col? (f : Frame K) (name : String) : Option (Series (XF K)) :=
  (f.cols.find? fun c => c.1 == name).map fun c => f.index.zip c.2

/-- `df.name`: AttributeError when there is no such column -/
def attr (f : Frame K) (name : String) : Py (Series (XF K)) :=
  match f.col? name with
  | some s => .ok s
  | none => .error .attributeError

/-- `df[name]`: KeyError when there is no such column -/
def item (f : Frame K) (name : String) : Py (Series (XF K)) :=
  match f.col? name with
  | some s => .ok s
  | none => .error .keyError

/-- `df[name] = series` (the series is aligned to the index of a non-empty frame; a frame without columns takes the
index of the series) -/
def setCol (f : Frame K) (name : String) (s : Series (XF K)) : Frame K :=
  let f' : Frame K := if f.cols.isEmpty then { f with index := s.index } else f
  let v := f'.index.map fun t => (s.at? t).getD .nan
  if f'.has name then { f' with cols := f'.cols.map fun c => if c.1 == name then (name, v) else c }
  else { f' with cols := f'.cols ++ [(name, v)] }

end Frame

/-- util.py:26-43 `hourly_index`.  ValueError for an empty index (`date_range` of NaT).
The `set`/`loc` bookkeeping of lines 31-35 is the filter on days; lines 36-41 rebuild each kept
timestamp from its date and hour. -/
def hourlyIndex (api : PandasApi) (idx : List Time) (fillGaps : Bool := false) : Py (List Time) :=
  match idx.min?, idx.max? with
  | some lo, some hi =>
    let index := dateRange lo (replaceHour hi 23) HOUR
    if !fillGaps && decide (index.length > idx.length * 24) then do
      needs api.indexToDatetime
      let kept := index.filter fun t => (idx.map dayOf).contains (dayOf t)
      needs api.pdDatetime
      .ok (kept.map fun t => stamp (dayOf t) (hourOf t))
    else .ok index
  | _, _ => .error .valueError

section distribute
variable {K : Type} [Field K] [LinearOrder K]

/-- util.py:46-67 `distribute_equally`. -/
def distributeEqually (api : PandasApi) (daily : Series (XF K)) (divide : Bool := false) :
    Py (Series (XF K)) := do
  let index ← hourlyIndex api daily.index
  let hourly ← daily.reindex index
  let hourly := groupTransform domOf (ffill 23) hourly
  .ok (if divide then hourly.map fun r => (r.1, r.2 / .fin 24) else hourly)

end distribute

/-! ## detect_gaps -/

/-- the lines printed by `detect_gaps` -/
inductive GapMsg where
  | gap (a b : Time)
  | onlyFirst (n : Int)
  | total (n : Int)
  | invalid
deriving DecidableEq, Repr

/-- loop variables of `detect_gaps` -/
structure GapState where
  gcount : Int := 0
  msgCounter : Int := 0
  warned : Bool := false
  out : List GapMsg := []
deriving DecidableEq, Repr

/-- util.py:277-294: one iteration of the loop for the pair (a, b) of consecutive labels.  `timestep` is in seconds;
`time_diff.delta / 1e9 != timestep` is compared in exact arithmetic. -/
def gapStep (timestep : Int) (printAll : Bool) (printMax : Int) (verbose : Bool) (st : GapState) (a b : Time) :
    GapState :=
  if b - a ≠ timestep * SECOND then
    let st := { st with gcount := st.gcount + 1 }
    let st :=
      if printAll || decide (st.msgCounter ≤ printMax - 1) then
        { st with
          out := if verbose then st.out ++ [.gap a b] else st.out
          msgCounter := st.msgCounter + 1 }
      else st
    if st.msgCounter = printMax ∧ verbose = true ∧ st.warned = false then
      { st with out := st.out ++ [.onlyFirst st.msgCounter], warned := true }
    else st
  else st

/-- the loop over consecutive pairs (util.py:276-294) -/
def gapLoop (timestep : Int) (printAll : Bool) (printMax : Int) (verbose : Bool) :
    GapState → List Time → GapState
  | st, a :: b :: rest => gapLoop timestep printAll printMax verbose (gapStep timestep printAll printMax verbose st a b) (b :: rest)
  | st, _ => st

/-- util.py:249-297 `detect_gaps`.  `none` stands for an argument without an index (lines 271-275).  Returns the number of
gaps and the printed lines. -/
def detectGaps (api : PandasApi) (index : Option (List Time)) (timestep : Int) (printAll : Bool := false)
    (printMax : Int := 5) (verbose : Bool := true) : Py (Int × List GapMsg) :=
  match index with
  | none => .ok (-1, [.invalid])
  | some idx => do
    if 2 ≤ idx.length then needs api.timedeltaDelta
    let st := gapLoop timestep printAll printMax verbose {} idx
    .ok (st.gcount, if verbose then st.out ++ [.total st.gcount] else st.out)

/-! ## drop_incomplete_days -/

/-- the rows the two loops look for: `index.hour[i] == h and index.minute[i] == 0` -/
def isFullHour (h : Int) (t : Time) : Bool := hourOf t == h && minuteOf t == 0

/-- util.py:300-352 `drop_incomplete_days`.  The loops with `break` are `takeWhile`; the second one runs over the positions
n-1, …, 1 (position 0 is never examined).  `drop(index=labels)` removes every row with one of the labels. -/
def dropIncompleteDays {V : Type} (rows : Series V) (shift : Int := 0) : Series V :=
  let shift := if shift > 23 ∨ shift < 0 then 0 else shift
  let first := shift
  let last := if first - 1 < 0 then first - 1 + 24 else first - 1
  let idx := rows.index
  let head := idx.takeWhile fun t => !isFullHour first t
  let tail := idx.tail.reverse.takeWhile fun t => !isFullHour last t
  rows.filter fun r => !(head ++ tail).contains r.1

/-! ## interpolation -/

section interp
variable {K : Type}

/-- util.py:361-366, one pass of the loop -/
def interpColumn (api : PandasApi) (daily : Frame K) (t0 t1 : Time) (data : Series (XF K)) (ch : String × Int) :
    Py (Series (XF K)) := do
  if ch.2 < 0 ∨ 23 < ch.2 then throw .valueError  -- Timestamp.replace(hour=…)
  let index := dateRange (replaceHour t0 ch.2) (replaceHour t1 ch.2) DAY
  let s ← daily.item ch.1
  let s ← Series.make index s.values
  needs api.seriesAppend
  .ok (data ++ s)

/-- util.py:355-371 `prepare_interpolation_data`; `columnHours` is the dict in insertion order -/
def prepareInterpolationData (api : PandasApi) (daily : Frame K) (columnHours : List (String × Int)) :
    Py (Series (XF K)) :=
  match daily.index.head?, daily.index.getLast? with
  | some t0, some t1 => do
    let data ← columnHours.foldlM (interpColumn api daily t0 t1) []
    let data := data.insertionSort fun a b => a.1 ≤ b.1
    let idx ← hourlyIndex api daily.index
    Series.reindex data idx
  | _, _ => .error .indexError

variable [Field K] [LinearOrder K]

/-- last valid cell of a reversed prefix and its distance (1 = direct neighbour) -/
def nearestValid : Nat → List (XF K) → Option (XF K × Nat)
  | _, [] => none
  | n, x :: xs => if x.isNan then nearestValid (n + 1) xs else some (x, n + 1)

/-- the value of one NaN cell: `prev` = nearest valid cell before, `next` = nearest valid cell after (with distances) -/
def interpCell (limit : Nat) (prev next : Option (XF K × Nat)) : XF K :=
  match prev, next with
  | none, none => .nan
  | some (p, a), none => if a ≤ limit then p else .nan
  | none, some (n, b) => if b ≤ limit then n else .nan
  | some (p, a), some (n, b) =>
    if a ≤ limit ∨ b ≤ limit then p + (n - p) * .fin (a : K) / .fin ((a : K) + (b : K)) else .nan

/-- `values.interpolate(method='linear', limit=limit, limit_direction='both')` (pandas ignores the index for 'linear';
leading and trailing NaNs take the nearest valid value) -/
def interpAux (limit : Nat) : List (XF K) → List (XF K) → List (XF K)
  | _, [] => []
  | before, x :: xs =>
    (if x.isNan then interpCell limit (nearestValid 0 before) (nearestValid 0 xs) else x) ::
      interpAux limit (x :: before) xs

/-- station.py:403-437 `Station.interpolate` with `method='linear'` and `limit_direction='both'` (the defaults) -/
def stationInterpolate (api : PandasApi) (daily : Frame K) (columnHours : List (String × Int)) (limit : Nat := 24) :
    Py (Series (XF K)) := do
  let data ← prepareInterpolationData api daily columnHours
  .ok (data.index.zip (interpAux limit [] data.values))

end interp

/-! ## daily_from_hourly -/

section daily
variable {K : Type} [Field K] [LinearOrder K]

/-- util.py:374-414 `daily_from_hourly` -/
def dailyFromHourly (df : Frame K) : Frame K :=
  let d : Frame K := ⟨[], []⟩
  let d := match df.col? "temp" with
    | some s => ((d.setCol "temp" (s.resampleD meanSkip)).setCol "tmin" (s.groupbyDate minSkip)).setCol "tmax" (s.groupbyDate maxSkip)
    | none => d
  let d := match df.col? "precip" with
    | some s => d.setCol "precip" (s.resampleD sumSkip)
    | none => d
  let d := match df.col? "glob" with
    | some s => d.setCol "glob" (s.resampleD meanSkip)
    | none => d
  let d := match df.col? "hum" with
    | some s => ((d.setCol "hum" (s.resampleD meanSkip)).setCol "hum_min" (s.groupbyDate minSkip)).setCol "hum_max" (s.groupbyDate maxSkip)
    | none => d
  let d := match df.col? "wind" with
    | some s => d.setCol "wind" (s.resampleD meanSkip)
    | none => d
  match df.col? "ssd" with
    | some s => d.setCol "ssd" ((s.resampleD sumSkip).map fun r => (r.1, r.2 / .fin 60))
    | none => d

/-! ## mean daily course -/

/-- the pivot table of `calculate_mean_daily_course_by_month`: rows = hours, columns = months that occur -/
structure MeanCourse (K : Type) where
  months : List Int
  hours : List Int
  val : Int → Int → XF K

/-- `mean_course.unstack().loc[(month, hour)]`: KeyError for an absent label -/
def MeanCourse.lookup (c : MeanCourse K) (month hour : Int) : Py (XF K) :=
  if c.months.contains month && c.hours.contains hour then .ok (c.val month hour) else .error .keyError

/-- one column of the table -/
def MeanCourse.column (c : MeanCourse K) (month : Int) : List (XF K) := c.hours.map (c.val month)

/-- util.py:417-430 `calculate_mean_daily_course_by_month`; a (month, hour) pair without rows gives NaN in the pivot
table -/
def meanDailyCourseByMonth (s : Series (XF K)) (normalize : Bool := false) : MeanCourse K :=
  let months := ((List.range 12).map fun (k : Nat) => (k : Int) + 1).filter fun m => s.any fun r => monthOf r.1 == m
  let hours := ((List.range 24).map fun (k : Nat) => (k : Int)).filter fun h => s.any fun r => hourOf r.1 == h
  let raw : MeanCourse K := {
    months := months
    hours := hours
    val := fun m h => meanSkip ((s.filter fun r => monthOf r.1 == m && hourOf r.1 == h).map Prod.snd) }
  if normalize then
    { raw with val := fun m h =>
        (raw.val m h - minSkip (raw.column m)) / (maxSkip (raw.column m) - minSkip (raw.column m)) }
  else raw

end daily

end Melodist
