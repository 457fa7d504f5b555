import Verif.Model.SunRound
import Verif.Model.HourlyRound
import Verif.Model.DailyRound

/-!
# Hours of the temperature extremes in rounded arithmetic

`get_shift_by_data` and the hours of minimum and maximum temperature of `Model/Temperature.lean` once more, with every operation on numbers followed by a rounding; `sum` is the sum of
a group as pandas computes it.  (`Props/ShiftRound.lean` shows that they are the original functions for exact operations.)
-/

set_option linter.unusedSectionVars false

namespace Melodist

noncomputable section

/-- temperature.py:267-286 `get_shift_by_data`.  The hour of the daily maximum is found by comparisons only. -/
def getShiftByDataR (F : SunMath) (sum : List (XF ℝ) → XF ℝ) (temp : Series (XF ℝ)) (lon lat tz : ℝ) : List (Int × XF ℝ) :=
  let days := Series.daySpan temp.index
  let sun := getSunTimesR F (temp.resampleD (meanR F.fl sum)).index lon lat tz
  let delta : Series (XF ℝ) := days.map fun d => (midnight d,
    (hourCell (firstMaxHour temp d) - (((sun.at? (midnight d)).map SunTimes.sunnoon).getD .nan)).rnd F.fl)
  let months := ((List.range 12).map fun (k : Nat) => (k : Int) + 1).filter fun m => delta.any fun r => monthOf r.1 == m
  months.map fun m => (m, meanR F.fl sum ((delta.filter fun r => monthOf r.1 == m).map Prod.snd))

/-- temperature.py:87-107: the columns min_loc and max_loc -/
def minMaxLocR (fl : ℝ → ℝ) (idx : List Time) (minMaxTime : String) (maxDelta : Option (List (Int × XF ℝ))) (sun : Option (Series SunTimes)) :
    Py (List (XF ℝ × XF ℝ)) :=
  if minMaxTime = "fix" then .ok (idx.map fun _ => (.fin 7, .fin 14))
  else if minMaxTime = "sun_loc" then
    match sun with
    | none => .error .attributeError
    | some sun =>
      .ok (idx.map fun t =>
        match sun.at? t with
        | some s => (XF.round s.sunrise, (XF.round s.sunnoon + .fin 2).rnd fl)
        | none => (.nan, .nan))
  else if minMaxTime = "sun_loc_shift" then
    match sun with
    | none => .error .attributeError
    | some sun =>
      match maxDelta with
      | none => .error .typeError
      | some maxDelta => do
        let delta ← idx.mapM (shiftFor maxDelta)
        if sun.index ≠ idx then .error .unmodelled
        else .ok (List.zipWith (fun s d =>
          let minLoc := XF.round s.sunrise
          let maxLoc := XF.round ((s.sunnoon + d).rnd fl)
          (minLoc, if XF.lt maxLoc minLoc then (XF.round s.sunnoon + .fin 2).rnd fl else maxLoc)) sun.values delta)
  else .ok (idx.map fun _ => (.nan, .nan))

/-- temperature.py:87-122: the table `locdf` (as `locTable`) -/
def locTableR (fl : ℝ → ℝ) (daily : Frame ℝ) (minMaxTime : String) (maxDelta : Option (List (Int × XF ℝ))) (sun : Option (Series SunTimes)) :
    Py (Series LocRow) := do
  let locs ← minMaxLocR fl daily.index minMaxTime maxDelta sun
  let minLoc ← locs.mapM fun p => p.1.toInt
  let maxLoc ← locs.mapM fun p => p.2.toInt
  let tmin ← daily.attr "tmin"
  let tmax ← daily.attr "tmax"
  let temp ← daily.attr "temp"
  let n := daily.index.length
  let cell (s : Series (XF ℝ)) (t : Time) : XF ℝ := (s.at? t).getD .nan
  .ok ((daily.index.zip (minLoc.zip maxLoc)).zipIdx.map fun r =>
    let t := r.1.1
    (t, {
      minLoc := r.1.2.1
      maxLoc := r.1.2.2
      minCur := cell tmin t
      maxCur := cell tmax t
      meanCur := cell temp t
      minNext := if r.2 + 1 = n then cell tmin t else cell (tmin.shiftDays (-1)) t
      maxNext := if r.2 + 1 = n then cell tmax t else cell (tmax.shiftDays (-1)) t
      minBefore := if r.2 = 0 then cell tmin t else cell (tmin.shiftDays 1) t
      maxBefore := if r.2 = 0 then cell tmax t else cell (tmax.shiftDays 1) t }))

/-- temperature.py:61-240: the three sine methods, the hours of the extremes rounded as well -/
def sineTemperatureS (F : FloatMath) (api : PandasApi) (daily : Frame ℝ) (index : List Time) (method minMaxTime : String) (modNight : Bool)
    (maxDelta : Option (List (Int × XF ℝ))) (sun : Option (Series SunTimes)) : Py (Series (XF ℝ)) := do
  let loc ← locTableR F.fl daily minMaxTime maxDelta sun
  if ¬ loc.index.Pairwise (· < ·) then .error (if loc.index.Pairwise (· > ·) then .unmodelled else .valueError)
  else
  let out : Series (XF ℝ) := index.map fun t => (t,
    match loc.asof? t with
    | none => .nan
    | some r => if method = "sine_mean" then sineMeanCellR F (hourOf t) r.2 else sineCellR F modNight (hourOf t) r.2)
  match sun with
  | none => .error .attributeError
  | some sun =>
    if sun.any fun r => decide (XF.lt r.2.daylength (.fin 3)) then polarBranch api daily.index sun
    else .ok out

/-- temperature.py:28-264 `disaggregate_temperature`, the three sine methods -/
def disaggregateTemperatureS (F : FloatMath) (api : PandasApi) (daily : Frame ℝ) (method minMaxTime : String) (modNight : Bool)
    (maxDelta : Option (List (Int × XF ℝ))) (sun : Option (Series SunTimes)) : Py (Series (XF ℝ)) := do
  let index ← hourlyIndex api daily.index
  sineTemperatureS F api daily index method minMaxTime modNight maxDelta sun

end

end Melodist
