import Verif.Model.CascadeRound
import Verif.Model.Wind
import Verif.Model.Temperature
import Verif.Model.Radiation

/-!
# Temperature, wind and radiation disaggregation in rounded arithmetic

The functions of `Model/Temperature.lean`, `Model/Wind.lean` and `Model/Radiation.lean` that compute hourly values once more, with every arithmetic operation on
numbers followed by a rounding, `np.cos` and `np.pi` as given by the platform, and the mean of a day or of a column (`mean`) as an arbitrary function, because how
pandas adds depends on its version.  (`Props/RoundingC.lean` shows that they are the original functions for exact operations.)  Copies, comparisons and
operations on small integers (hours) are exact.  Simplifications: the hours of minimum and maximum temperature are those of the exact model (for
'sun_loc_shift' the sum of noon and shift is not rounded before it is rounded to a full hour; `Model/ShiftRound.lean` rounds these too); of the radiation methods, 'pot_rad'.
-/

set_option linter.unusedSectionVars false

namespace Melodist

noncomputable section

/-- the arithmetic of the platform: rounding after each operation, `np.cos` and `np.pi` -/
structure FloatMath where
  fl : ℝ → ℝ
  cos : ℝ → ℝ
  pi : ℝ

/-- exact arithmetic -/
def FloatMath.exact : FloatMath := ⟨id, Real.cos, Real.pi⟩

/-- `np.cos` of a cell -/
def FloatMath.cosCell (F : FloatMath) : XF ℝ → XF ℝ
  | .fin x => .fin (F.cos x)
  | _ => .nan

/-- temperature.py:141-171: one hour of 'sine_min_max' / 'sine' -/
def sineCellR (F : FloatMath) (modNight : Bool) (h : Int) (r : LocRow) : XF ℝ :=
  let delta := (maxValAt h r - minValAt h r).rnd F.fl
  let half := (delta / .fin 2).rnd F.fl
  let vTrans := (minValAt h r + half).rnd F.fl
  let wave (angle : XF ℝ) : XF ℝ := (vTrans + (half * F.cosCell angle).rnd F.fl).rnd F.fl
  if modNight then
    let x : XF ℝ := .nan
    let x := if h ≤ r.minLoc then
        wave (((XF.fin F.pi / .fin ((24 - (r.maxLoc - r.minLoc) : Int) : ℝ)).rnd F.fl * .fin ((24 - r.maxLoc + h : Int) : ℝ)).rnd F.fl)
      else x
    let x := if r.minLoc < h ∧ h < r.maxLoc then
        wave ((XF.fin (F.fl (1.25 * F.pi)) +
          ((XF.fin (F.fl (0.75 * F.pi)) / .fin ((r.maxLoc - r.minLoc : Int) : ℝ)).rnd F.fl * .fin ((h - r.minLoc : Int) : ℝ)).rnd F.fl).rnd F.fl)
      else x
    if r.maxLoc ≤ h then
      wave (((XF.fin F.pi / .fin ((24 - (r.maxLoc - r.minLoc) : Int) : ℝ)).rnd F.fl * .fin ((h - r.maxLoc : Int) : ℝ)).rnd F.fl)
    else x
  else wave (.fin (F.fl (F.fl (F.fl (2 * F.pi) / 24) * ((h - r.maxLoc : Int) : ℝ))))

/-- temperature.py:172-176: one hour of 'sine_mean' -/
def sineMeanCellR (F : FloatMath) (h : Int) (r : LocRow) : XF ℝ :=
  (r.meanCur + ((((r.maxCur - r.minCur).rnd F.fl / .fin 2).rnd F.fl) *
    F.cosCell (.fin (F.fl (F.fl (F.fl (2 * F.pi) / 24) * ((h - r.maxLoc : Int) : ℝ))))).rnd F.fl).rnd F.fl

/-- temperature.py:61-240: the three sine methods -/
def sineTemperatureR (F : FloatMath) (api : PandasApi) (daily : Frame ℝ) (index : List Time) (method minMaxTime : String) (modNight : Bool)
    (maxDelta : Option (List (Int × XF ℝ))) (sun : Option (Series SunTimes)) : Py (Series (XF ℝ)) := do
  let loc ← locTable daily minMaxTime maxDelta sun
  if ¬ loc.index.Pairwise (· < ·) then .error (if loc.index.Pairwise (· > ·) then .unmodelled else .valueError)
  else
  let out : Series (XF ℝ) := index.map fun t => (t,
    match loc.asof? t with
    | none => .nan
    | some r => if method = "sine_mean" then sineMeanCellR F (hourOf t) r.2 else sineCellR F modNight (hourOf t) r.2)
  match sun with
  | none => .error .attributeError
  | some sun =>
    if sun.any fun r => decide (XF.lt r.2.daylength (.fin 3)) then polarBranch api daily.index sun
    else .ok out

/-- temperature.py:241-249: method 'mean_course_min_max' -/
def courseMinMaxR (F : FloatMath) (daily : Frame ℝ) (index : List Time) (course : Option (MeanCourse ℝ)) : Py (Series (XF ℝ)) :=
  match course with
  | none => .error .attributeError
  | some course => do
    let norm ← index.mapM fun t => course.lookup (monthOf t) (hourOf t)
    let tmin ← (← daily.attr "tmin").reindexFfill index (some 23)
    let tmax ← (← daily.attr "tmax").reindexFfill index (some 23)
    .ok ((index.zip (norm.zip (tmin.values.zip tmax.values))).map fun r =>
      (r.1, ((r.2.1 * (r.2.2.2 - r.2.2.1).rnd F.fl).rnd F.fl + r.2.2.1).rnd F.fl))

/-- temperature.py:254-256: the course minus its mean, column by column -/
def MeanCourse.zeroMeanR (F : FloatMath) (mean : List (XF ℝ) → XF ℝ) (c : MeanCourse ℝ) : MeanCourse ℝ :=
  { c with val := fun m h => (c.val m h - mean (c.column m)).rnd F.fl }

/-- temperature.py:250-262: method 'mean_course_mean' -/
def courseMeanR (F : FloatMath) (mean : List (XF ℝ) → XF ℝ) (daily : Frame ℝ) (index : List Time) (course : Option (MeanCourse ℝ)) : Py (Series (XF ℝ)) := do
  let tmax ← (← daily.attr "tmax").reindexFfill index (some 23)
  let tmin ← (← daily.attr "tmin").reindexFfill index (some 23)
  match course with
  | none => throw .attributeError
  | some course =>
    let mc ← index.mapM fun t => (course.zeroMeanR F mean).lookup (monthOf t) (hourOf t)
    let temp ← (← daily.attr "temp").reindexFfill index (some 23)
    .ok ((index.zip (mc.zip (temp.values.zip (tmin.values.zip tmax.values)))).map fun r =>
      (r.1, (r.2.2.1 + ((r.2.2.2.2 - r.2.2.2.1).rnd F.fl * r.2.1).rnd F.fl).rnd F.fl))

/-- temperature.py:28-264 `disaggregate_temperature` -/
def disaggregateTemperatureR (F : FloatMath) (mean : List (XF ℝ) → XF ℝ) (api : PandasApi) (daily : Frame ℝ) (method : String := "sine_min_max")
    (minMaxTime : String := "fix") (modNight : Bool := false) (maxDelta : Option (List (Int × XF ℝ)) := none) (course : Option (MeanCourse ℝ) := none)
    (sun : Option (Series SunTimes) := none) : Py (Series (XF ℝ)) := do
  if ¬ (method = "sine_min_max" ∨ method = "sine_mean" ∨ method = "sine" ∨ method = "mean_course_min_max" ∨ method = "mean_course_mean") then
    .error .valueError
  else
  let index ← hourlyIndex api daily.index
  if method = "sine_min_max" ∨ method = "sine_mean" ∨ method = "sine" then
    sineTemperatureR F api daily index method minMaxTime modNight maxDelta sun
  else if method = "mean_course_min_max" then courseMinMaxR F daily index course
  else courseMeanR F mean daily index course

/-- wind.py:28-42 `_cosine_function` for one (mean_wind, t) -/
def cosineCellR (F : FloatMath) (a b tShift : ℝ) (mean : XF ℝ) (t : Int) : XF ℝ :=
  (((.fin a * mean).rnd F.fl * F.cosCell (.fin (F.fl (F.fl (F.pi * F.fl ((t : ℝ) - tShift)) / 12)))).rnd F.fl + (.fin b * mean).rnd F.fl).rnd F.fl

/-- wind.py:45-72 `disaggregate_wind`, methods 'equal' and 'cosine' -/
def disaggregateWindR (F : FloatMath) (api : PandasApi) (daily : Series (XF ℝ)) (method : String) (a b tShift : ℝ) : Py (List (XF ℝ)) := do
  let windEq ← distributeEqually api daily
  if method = "equal" then .ok windEq.values
  else .ok (windEq.map fun r => cosineCellR F a b tShift r.2 (hourOf r.1))

/-- radiation.py:94-99: the hourly values from potential radiation and daily values; `mean` is `resample('D').mean()` of a day -/
def radiationCoreR (F : FloatMath) (mean : List (XF ℝ) → XF ℝ) (pot daily : Series (XF ℝ)) : Py (Series (XF ℝ)) := do
  let g ← daily.reindexFfill pot.index
  let p ← (pot.resampleD mean).reindexFfill pot.index
  .ok ((pot.zip (p.values.zip g.values)).map fun r =>
    let v := ((r.1.2 / r.2.1).rnd F.fl * r.2.2).rnd F.fl
    (r.1.1, if XF.lt v (.fin (F.fl 0.01)) then .fin 0 else v))

end

end Melodist
