import Verif.Model.Util
import Verif.Model.UtilPhys
import Mathlib.Algebra.Order.Round

/-!
# Model of melodist/temperature.py
-/

set_option linter.unusedSectionVars false

namespace Melodist

noncomputable section

/-- `np.round` of a number to an integer: halves go to the even neighbour -/
def roundEven (x : ℝ) : Int :=
  if x - ⌊x⌋ < 1 / 2 then ⌊x⌋
  else if 1 / 2 < x - ⌊x⌋ then ⌊x⌋ + 1
  else if ⌊x⌋ % 2 = 0 then ⌊x⌋ else ⌊x⌋ + 1

/-- `Series.round()` for one cell -/
def XF.round : XF ℝ → XF ℝ
  | .fin x => .fin (roundEven x : ℝ)
  | y => y

/-- `.astype(int)` for one cell: ValueError for NaN and infinities, otherwise truncation -/
def XF.toInt : XF ℝ → Py Int
  | .fin x => .ok (if 0 ≤ x then ⌊x⌋ else ⌈x⌉)
  | _ => .error .valueError

/-- temperature.py:101: `max_delta[month]` for the month of one label; KeyError for an absent month -/
def shiftFor (maxDelta : List (Int × XF ℝ)) (t : Time) : Py (XF ℝ) :=
  match maxDelta.find? (fun r => r.1 == monthOf t) with
  | some r => .ok r.2
  | none => .error .keyError

/-- temperature.py:87-107: the columns min_loc and max_loc of `locdf`, before `astype(int)`; one pair per row of the daily frame.
Assigning a series to a column aligns it to the index (NaN where there is no label).  `max_delta` maps months to shifts.
Simplification: for 'sun_loc_shift' the sun times must belong to the days of the frame. -/
def minMaxLoc (idx : List Time) (minMaxTime : String) (maxDelta : Option (List (Int × XF ℝ))) (sun : Option (Series SunTimes)) :
    Py (List (XF ℝ × XF ℝ)) :=
  if minMaxTime = "fix" then .ok (idx.map fun _ => (.fin 7, .fin 14))
  else if minMaxTime = "sun_loc" then
    match sun with
    | none => .error .attributeError
    | some sun =>
      .ok (idx.map fun t =>
        match sun.at? t with
        | some s => (XF.round s.sunrise, XF.round s.sunnoon + .fin 2)
        | none => (.nan, .nan))
  else if minMaxTime = "sun_loc_shift" then
    match sun with
    | none => .error .attributeError
    | some sun =>
      match maxDelta with
      | none => .error .typeError
      | some maxDelta => do
        let delta ← idx.mapM (shiftFor maxDelta)
        if sun.index ≠ idx then .error .unmodelled
        else .ok (List.zipWith (fun s d =>
          let minLoc := XF.round s.sunrise
          let maxLoc := XF.round (s.sunnoon + d)
          (minLoc, if XF.lt maxLoc minLoc then XF.round s.sunnoon + .fin 2 else maxLoc)) sun.values delta)
  else .ok (idx.map fun _ => (.nan, .nan))

/-- one row of `locdf` (temperature.py:72-85) -/
structure LocRow where
  minLoc : Int
  maxLoc : Int
  minBefore : XF ℝ
  minCur : XF ℝ
  minNext : XF ℝ
  maxBefore : XF ℝ
  maxCur : XF ℝ
  maxNext : XF ℝ
  meanCur : XF ℝ

/-- temperature.py:87-122: the table `locdf` with one row per day.  `shift(±1, 'D')` moves the labels, the assignment aligns; the last row
takes its own values as next-day values, the first row as previous-day values. -/
def locTable (daily : Frame ℝ) (minMaxTime : String) (maxDelta : Option (List (Int × XF ℝ))) (sun : Option (Series SunTimes)) :
    Py (Series LocRow) := do
  let locs ← minMaxLoc daily.index minMaxTime maxDelta sun
  let minLoc ← locs.mapM fun p => p.1.toInt
  let maxLoc ← locs.mapM fun p => p.2.toInt
  let tmin ← daily.attr "tmin"
  let tmax ← daily.attr "tmax"
  let temp ← daily.attr "temp"
  let n := daily.index.length
  let cell (s : Series (XF ℝ)) (t : Time) : XF ℝ := (s.at? t).getD .nan
  .ok ((daily.index.zip (minLoc.zip maxLoc)).zipIdx.map fun r =>
    let t := r.1.1
    (t, {
      minLoc := r.1.2.1
      maxLoc := r.1.2.2
      minCur := cell tmin t
      maxCur := cell tmax t
      meanCur := cell temp t
      minNext := if r.2 + 1 = n then cell tmin t else cell (tmin.shiftDays (-1)) t
      maxNext := if r.2 + 1 = n then cell tmax t else cell (tmax.shiftDays (-1)) t
      minBefore := if r.2 = 0 then cell tmin t else cell (tmin.shiftDays 1) t
      maxBefore := if r.2 = 0 then cell tmax t else cell (tmax.shiftDays 1) t }))

/-- temperature.py:127-131: the minimum used at hour `h` -/
def minValAt (h : Int) (r : LocRow) : XF ℝ := if h < r.maxLoc then r.minCur else r.minNext

/-- temperature.py:133-137: the maximum used at hour `h` -/
def maxValAt (h : Int) (r : LocRow) : XF ℝ := if h < r.minLoc then r.maxBefore else r.maxCur

/-- temperature.py:141-171: one hour of 'sine_min_max' / 'sine' -/
def sineCell (modNight : Bool) (h : Int) (r : LocRow) : XF ℝ :=
  let delta := maxValAt h r - minValAt h r
  let vTrans := minValAt h r + delta / .fin 2
  if modNight then
    let x : XF ℝ := .nan
    let x := if h ≤ r.minLoc then
        vTrans + delta / .fin 2 * XF.cos (.fin Real.pi / .fin ((24 - (r.maxLoc - r.minLoc) : Int) : ℝ) * .fin ((24 - r.maxLoc + h : Int) : ℝ))
      else x
    let x := if r.minLoc < h ∧ h < r.maxLoc then
        vTrans + delta / .fin 2 * XF.cos (.fin (1.25 * Real.pi) +
          .fin (0.75 * Real.pi) / .fin ((r.maxLoc - r.minLoc : Int) : ℝ) * .fin ((h - r.minLoc : Int) : ℝ))
      else x
    if r.maxLoc ≤ h then
      vTrans + delta / .fin 2 * XF.cos (.fin Real.pi / .fin ((24 - (r.maxLoc - r.minLoc) : Int) : ℝ) * .fin ((h - r.maxLoc : Int) : ℝ))
    else x
  else
    vTrans + delta / .fin 2 * XF.cos (.fin (2 * Real.pi / 24 * ((h - r.maxLoc : Int) : ℝ)))

/-- temperature.py:172-176: one hour of 'sine_mean' -/
def sineMeanCell (h : Int) (r : LocRow) : XF ℝ :=
  r.meanCur + (r.maxCur - r.minCur) / .fin 2 * XF.cos (.fin (2 * Real.pi / 24 * ((h - r.maxLoc : Int) : ℝ)))

/-- temperature.py:178-240: the fallback for days shorter than 3 h.  Whatever it computes, line 209 indexes a series with
`polars.diff()`; the first element of the difference of a boolean series is NaN, and pandas refuses a mask with NaN with ValueError.  Before
that, line 182 calls `hourly_index` for the short days.  Lines 210-240 are never reached.  Simplification: only for sun times of the days of the
frame. -/
def polarBranch (api : PandasApi) (idx : List Time) (sun : Series SunTimes) : Py (Series (XF ℝ)) := do
  let _ ← hourlyIndex api (Series.index (sun.filter fun r => decide (XF.lt r.2.daylength (.fin 3))))
  if sun.index ≠ idx then .error .unmodelled else .error .valueError

/-- temperature.py:61-240: the three sine methods -/
def sineTemperature (api : PandasApi) (daily : Frame ℝ) (index : List Time) (method minMaxTime : String) (modNight : Bool)
    (maxDelta : Option (List (Int × XF ℝ))) (sun : Option (Series SunTimes)) : Py (Series (XF ℝ)) := do
  let loc ← locTable daily minMaxTime maxDelta sun
  -- line 125: reindex(method='ffill') needs a monotonic unique index (a decreasing one is outside the scope of the model)
  if ¬ loc.index.Pairwise (· < ·) then .error (if loc.index.Pairwise (· > ·) then .unmodelled else .valueError)
  else
  let out : Series (XF ℝ) := index.map fun t => (t,
    match loc.asof? t with
    | none => .nan
    | some r => if method = "sine_mean" then sineMeanCell (hourOf t) r.2 else sineCell modNight (hourOf t) r.2)
  match sun with
  | none => .error .attributeError
  | some sun =>
    if sun.any fun r => decide (XF.lt r.2.daylength (.fin 3)) then polarBranch api daily.index sun
    else .ok out

/-- temperature.py:241-249: method 'mean_course_min_max' -/
def courseMinMax (daily : Frame ℝ) (index : List Time) (course : Option (MeanCourse ℝ)) : Py (Series (XF ℝ)) :=
  match course with
  | none => .error .attributeError
  | some course => do
    let norm ← index.mapM fun t => course.lookup (monthOf t) (hourOf t)
    let tmin ← (← daily.attr "tmin").reindexFfill index (some 23)
    let tmax ← (← daily.attr "tmax").reindexFfill index (some 23)
    .ok ((index.zip (norm.zip (tmin.values.zip tmax.values))).map fun r =>
      (r.1, r.2.1 * (r.2.2.2 - r.2.2.1) + r.2.2.1))

/-- temperature.py:254-256: the course minus its mean, column by column -/
def MeanCourse.zeroMean (c : MeanCourse ℝ) : MeanCourse ℝ := { c with val := fun m h => c.val m h - meanSkip (c.column m) }

/-- temperature.py:250-262: method 'mean_course_mean' -/
def courseMean (daily : Frame ℝ) (index : List Time) (course : Option (MeanCourse ℝ)) : Py (Series (XF ℝ)) := do
  let tmax ← (← daily.attr "tmax").reindexFfill index (some 23)
  let tmin ← (← daily.attr "tmin").reindexFfill index (some 23)
  match course with
  | none => throw .attributeError
  | some course =>
    let mc ← index.mapM fun t => course.zeroMean.lookup (monthOf t) (hourOf t)
    let temp ← (← daily.attr "temp").reindexFfill index (some 23)
    .ok ((index.zip (mc.zip (temp.values.zip (tmin.values.zip tmax.values)))).map fun r =>
      (r.1, r.2.2.1 + (r.2.2.2.2 - r.2.2.2.1) * r.2.1))

/-- temperature.py:28-264 `disaggregate_temperature` -/
def disaggregateTemperature (api : PandasApi) (daily : Frame ℝ) (method : String := "sine_min_max") (minMaxTime : String := "fix")
    (modNight : Bool := false) (maxDelta : Option (List (Int × XF ℝ)) := none) (course : Option (MeanCourse ℝ) := none)
    (sun : Option (Series SunTimes) := none) : Py (Series (XF ℝ)) := do
  if ¬ (method = "sine_min_max" ∨ method = "sine_mean" ∨ method = "sine" ∨ method = "mean_course_min_max" ∨ method = "mean_course_mean") then
    .error .valueError
  else
  let index ← hourlyIndex api daily.index
  if method = "sine_min_max" ∨ method = "sine_mean" ∨ method = "sine" then
    sineTemperature api daily index method minMaxTime modNight maxDelta sun
  else if method = "mean_course_min_max" then courseMinMax daily index course
  else courseMean daily index course

/-- `groupby(date).idxmax()` for one day, as hour of the day: the first row with the largest value; `none` (dropped by `dropna`) for a day
without numbers (pandas before 3.0; later versions raise) -/
def firstMaxHour (temp : Series (XF ℝ)) (d : Int) : Option Int :=
  let rows : Series (XF ℝ) := temp.filter fun r => dayOf r.1 == d
  (rows.find? fun r => decide (XF.feq r.2 (maxSkip rows.values))).map fun r => hourOf r.1

/-- an hour as a float cell, NaN after alignment if the day was dropped (temperature.py:281-283) -/
def hourCell : Option Int → XF ℝ
  | some h => .fin (h : ℝ)
  | none => .nan

/-- temperature.py:267-287 `get_shift_by_data`: the rows (month, mean shift) -/
def getShiftByData (temp : Series (XF ℝ)) (lon lat tz : ℝ) : List (Int × XF ℝ) :=
  let days := Series.daySpan temp.index
  let sun := getSunTimes (temp.resampleD meanSkip).index lon lat tz
  let delta : Series (XF ℝ) := days.map fun d => (midnight d,
    hourCell (firstMaxHour temp d) - (((sun.at? (midnight d)).map SunTimes.sunnoon).getD .nan))
  let months := ((List.range 12).map fun (k : Nat) => (k : Int) + 1).filter fun m => delta.any fun r => monthOf r.1 == m
  months.map fun m => (m, meanSkip ((delta.filter fun r => monthOf r.1 == m).map Prod.snd))

end

end Melodist
