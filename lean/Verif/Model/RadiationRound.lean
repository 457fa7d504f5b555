import Verif.Model.HourlyRound

/-!
# `disaggregate_radiation` with all methods, Ångström and Bristow-Campbell in rounded arithmetic

`angstroem`, `bristowCampbell`, `ssdDaily` and `disaggregateRadiation` of `Model/Radiation.lean` once more, with every arithmetic operation followed by a rounding (in the order of the
code), the constants rounded, `np.exp` and `**` as given by the platform, and the means of days and of months (`mean`) as an arbitrary function.  (`C146_exact` shows that they are the
original functions for exact operations.)  Parameters of the caller are used as they are.
-/

set_option linter.unusedSectionVars false

namespace Melodist

noncomputable section

/-- the arithmetic of the platform, with the exponential function and powers -/
structure RadMath extends FloatMath where
  exp : ℝ → ℝ
  pow : ℝ → ℝ → ℝ

/-- exact arithmetic; a negative number has only powers with integer exponents -/
def RadMath.exact : RadMath := { FloatMath.exact with exp := Real.exp, pow := fun x p => if 0 < x then x ^ p else x ^ ⌊p⌋ }

/-- `np.exp` of a cell -/
def RadMath.expCell (F : RadMath) : XF ℝ → XF ℝ
  | .nan => .nan
  | .ninf => .fin 0
  | .fin x => .fin (F.exp x)
  | .pinf => .pinf

open Classical in
/-- `x ** p` of cells, as `XF.pow` -/
def RadMath.powCell (F : RadMath) (x p : XF ℝ) : XF ℝ :=
  match p with
  | .fin p =>
    if p = 0 then .fin 1
    else match x with
      | .nan => .nan
      | .pinf => if 0 < p then .pinf else .fin 0
      | .ninf => if ∃ k : Int, p = 2 * k + 1 then (if 0 < p then .ninf else .fin 0) else (if 0 < p then .pinf else .fin 0)
      | .fin x =>
        if 0 < x then .fin (F.pow x p)
        else if x = 0 then (if 0 < p then .fin 0 else .pinf)
        else if ∃ k : Int, p = k then .fin (F.pow x p) else .nan
  | _ => .nan

/-- radiation.py:283-311 `angstroem` -/
def angstroemR (fl : ℝ → ℝ) (ssd dayLength potDaily : Series (XF ℝ)) (par : ParPair ℝ) : Py (Series (XF ℝ)) := do
  let ab ← par.values (ssd.index.map monthOf)
  let x : Series (XF ℝ) := (ssd.zip ab).map fun r => (r.1.1, (r.2.2 * r.1.2).rnd fl)
  let x ← Series.align (fun u v => (u / v).rnd fl) x dayLength
  let x ← match par with
    | .scalar a _ => .ok (x.map fun r => (r.1, (a + r.2).rnd fl))
    | .monthly _ _ =>
      if x.length = ab.length then .ok ((x.zip ab).map fun r => (r.1.1, (r.2.1 + r.1.2).rnd fl)) else .error .valueError
  Series.align (fun u v => (u * v).rnd fl) x potDaily

/-- radiation.py:234: the temperature range of a day from its minimum, its maximum and the minimum of the next day -/
def bcRangeR (fl : ℝ → ℝ) (tmin tmax next : XF ℝ) : XF ℝ := (tmax - (((tmin + next).rnd fl) / .fin 2).rnd fl).rnd fl

/-- radiation.py:237, 245-246: the daily value from the range of the day, the mean range of the month, the parameters and the mean potential radiation -/
def bcCellR (F : RadMath) (range avg a c pot : XF ℝ) : XF ℝ :=
  let b := (.fin (F.fl 0.036) * F.expCell ((.fin (F.fl (-0.154)) * avg).rnd F.fl)).rnd F.fl
  let e := F.expCell ((-b * F.powCell range c).rnd F.fl)
  ((a * (.fin 1 - e).rnd F.fl).rnd F.fl * pot).rnd F.fl

/-- radiation.py:207-248 `bristow_campbell` -/
def bristowCampbellR (F : RadMath) (mean : List (XF ℝ) → XF ℝ) (tmin tmax potDaily : Series (XF ℝ)) (par : ParPair ℝ) : Py (Series (XF ℝ)) := do
  if tmin.index ≠ tmax.index then .error .assertionError
  else match tmin.index.head?, tmin.index.getLast? with
  | some first, some last => do
    let days := dateRange first last DAY
    let tmin' ← tmin.reindex days
    let tmax' ← tmax.reindex days
    let temp ← (bcRows tmin' tmax').locAll tmin.index
    let pot ← potDaily.locAll tmin.index
    let dT : Series (XF ℝ) := temp.map fun r => (r.1, bcRangeR F.fl r.2.1 r.2.2.1 r.2.2.2)
    let months := tmin.index.map monthOf
    let avg (m : Int) : XF ℝ := mean ((dT.filter fun r => monthOf r.1 == m).map Prod.snd)
    let par ← par.values months
    .ok ((dT.zip (par.zip pot)).map fun r => (r.1.1, bcCellR F r.1.2 (avg (monthOf r.1.1)) r.2.1.1 r.2.1.2 r.2.2.2))
  | _, _ => .error .indexError

/-- radiation.py:77-87: the daily values for method 'pot_rad_via_ssd' -/
def ssdDailyR (fl : ℝ → ℝ) (daily : Frame ℝ) (sun : Option (Series SunTimes)) (potDaily : Series (XF ℝ)) (par : ParPair ℝ) : Py (Series (XF ℝ)) :=
  match sun with
  | none => .error .attributeError
  | some sun => do
    let dates := Series.index (sun.filter fun r => decide (XF.lt (.fin 0) r.2.daylength))
    let ssd ← (← daily.attr "ssd").locAll dates
    let dl ← Series.locAll (sun.map fun r => (r.1, r.2.daylength)) dates
    let pot ← potDaily.locAll dates
    let r ← angstroemR fl ssd dl pot par
    .ok (daily.index.map fun t => (t, if dates.contains t then (r.at? t).getD .nan else .fin 0))

/-- radiation.py:32-101 `disaggregate_radiation` -/
def disaggregateRadiationR (F : RadMath) (mean : List (XF ℝ) → XF ℝ) (api : PandasApi) (daily : Frame ℝ) (sun : Option (Series SunTimes))
    (pot : Option (Series (XF ℝ))) (method : String) (angstr bristcamp : ParPair ℝ) (course : Option (MeanCourse ℝ)) : Py (Series (XF ℝ)) := do
  if ¬ (method = "pot_rad" ∨ method = "pot_rad_via_ssd" ∨ method = "pot_rad_via_bc" ∨ method = "mean_course") then .error .valueError
  else
  let index ← hourlyIndex api daily.index
  if method = "mean_course" then
    match course with
    | none => .error .assertionError
    | some course => do
      let vals ← index.mapM fun t => course.lookup (monthOf t) (hourOf t)
      radiationCoreR F.toFloatMath mean (index.zip vals) (← daily.attr "glob")
  else
    match pot with
    | none => .error .assertionError
    | some pot =>
      if method = "pot_rad" then do radiationCoreR F.toFloatMath mean pot (← daily.attr "glob")
      else if method = "pot_rad_via_ssd" then do radiationCoreR F.toFloatMath mean pot (← ssdDailyR F.fl daily sun (pot.resampleD mean) angstr)
      else do
        let tmin ← daily.attr "tmin"
        let tmax ← daily.attr "tmax"
        radiationCoreR F.toFloatMath mean pot (← bristowCampbellR F mean tmin tmax (pot.resampleD mean) bristcamp)

end

end Melodist
