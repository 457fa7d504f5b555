import Verif.Model.Util
import Verif.Model.UtilPhys
import Verif.Model.Humidity
import Mathlib.Analysis.SpecialFunctions.Pow.Real
import Mathlib.Analysis.SpecialFunctions.Trigonometric.Inverse

/-!
# Model of melodist/radiation.py

The two fits (radiation.py:251-280, 314-344) are in Model/RadiationFit.lean.
-/

set_option linter.unusedSectionVars false

namespace Melodist

/-- `s.loc[idx]` / `s[idx]` for a list of labels: KeyError if one is absent.  Simplification: labels of `s` are unique. -/
def Series.locAll {V : Type} (s : Series V) (idx : List Time) : Py (Series V) :=
  idx.mapM fun t => match s.at? t with
    | some v => .ok (t, v)
    | none => .error .keyError

/-- `tab.loc[months].values` for a table by month: KeyError for an absent month -/
def monthValues {K : Type} (tab : List (Int × XF K)) (months : List Int) : Py (List (XF K)) :=
  months.mapM fun m => match tab.find? fun r => r.1 == m with
    | some r => .ok r.2
    | none => .error .keyError

/-- a pair of model parameters: two numbers, or two tables by month (`isinstance(a, pd.Series)`) -/
inductive ParPair (K : Type) where
  | scalar (a b : XF K)
  | monthly (a b : List (Int × XF K))

/-- the parameters for rows in the given months -/
def ParPair.values {K : Type} (par : ParPair K) (months : List Int) : Py (List (XF K × XF K)) :=
  match par with
  | .scalar a b => .ok (months.map fun _ => (a, b))
  | .monthly a b => do
    let a ← monthValues a months
    let b ← monthValues b months
    .ok (a.zip b)

/-- radiation.py:283-311 `angstroem`.  With tables by month the parameters are plain arrays: they are combined by position. -/
def angstroem {K : Type} [Field K] [LinearOrder K] (ssd dayLength potDaily : Series (XF K)) (par : ParPair K) : Py (Series (XF K)) := do
  let ab ← par.values (ssd.index.map monthOf)
  let x : Series (XF K) := (ssd.zip ab).map fun r => (r.1.1, r.2.2 * r.1.2)
  let x ← Series.align (· / ·) x dayLength
  let x ← match par with
    | .scalar a _ => .ok (x.map fun r => (r.1, a + r.2))
    | .monthly _ _ =>
      if x.length = ab.length then .ok ((x.zip ab).map fun r => (r.1.1, r.2.1 + r.1.2)) else .error .valueError
  Series.align (· * ·) x potDaily

noncomputable section

namespace XF

open Classical in
/-- `x ** p` for float cells (C `pow`).  Simplification: an infinite exponent gives NaN. -/
def pow (x p : XF ℝ) : XF ℝ :=
  match p with
  | .fin p =>
    if p = 0 then .fin 1
    else match x with
      | .nan => .nan
      | .pinf => if 0 < p then .pinf else .fin 0
      | .ninf => if ∃ k : Int, p = 2 * k + 1 then (if 0 < p then .ninf else .fin 0) else (if 0 < p then .pinf else .fin 0)
      | .fin x =>
        if 0 < x then .fin (x ^ p)
        else if x = 0 then (if 0 < p then .fin 0 else .pinf)
        else if ∃ k : Int, p = k then .fin (x ^ ⌊p⌋) else .nan
  | _ => .nan

/-- `np.arcsin`: NaN outside [-1, 1] -/
def arcsin : XF ℝ → XF ℝ
  | .fin x => if -1 ≤ x ∧ x ≤ 1 then .fin (Real.arcsin x) else .nan
  | _ => .nan

/-- `.clip(min=0)`: NaN stays NaN -/
def clipMin0 : XF ℝ → XF ℝ
  | .fin x => .fin (max x 0)
  | .ninf => .fin 0
  | y => y

end XF

/-- radiation.py:226-229: the rows tmin, tmax and tmin of the next day; the last day takes its own tmin -/
def bcRows (tmin tmax : Series (XF ℝ)) : Series (XF ℝ × XF ℝ × XF ℝ) :=
  tmin.zipIdx.zip tmax |>.map fun r =>
    (r.1.1.1, r.1.1.2, r.2.2, if r.1.2 + 1 < tmin.length then (tmin.values[r.1.2 + 1]?).getD .nan else r.1.1.2)

/-- radiation.py:207-248 `bristow_campbell` -/
def bristowCampbell (tmin tmax potDaily : Series (XF ℝ)) (par : ParPair ℝ) : Py (Series (XF ℝ)) := do
  if tmin.index ≠ tmax.index then .error .assertionError
  else match tmin.index.head?, tmin.index.getLast? with
  | some first, some last => do
    let days := dateRange first last DAY
    let tmin' ← tmin.reindex days
    let tmax' ← tmax.reindex days
    let temp ← (bcRows tmin' tmax').locAll tmin.index
    let pot ← potDaily.locAll tmin.index
    let dT : Series (XF ℝ) := temp.map fun r => (r.1, r.2.2.1 - (r.2.1 + r.2.2.2) / .fin 2)
    let months := tmin.index.map monthOf
    let avg (m : Int) : XF ℝ := meanSkip ((dT.filter fun r => monthOf r.1 == m).map Prod.snd)
    let par ← par.values months
    .ok ((dT.zip (par.zip pot)).map fun r =>
      (r.1.1, r.2.1.1 * (.fin 1 - XF.exp (-(.fin 0.036 * XF.exp (.fin (-0.154) * avg (monthOf r.1.1))) * XF.pow r.1.2 r.2.1.2)) * r.2.2.2))
  | _, _ => .error .indexError

/-- radiation.py:94-99: the hourly values from potential radiation and daily values.  Both are spread with `reindex(method='ffill')`, and values
below 0.01 are set to 0. -/
def radiationCore (pot daily : Series (XF ℝ)) : Py (Series (XF ℝ)) := do
  let g ← daily.reindexFfill pot.index
  let p ← (pot.resampleD meanSkip).reindexFfill pot.index
  .ok ((pot.zip (p.values.zip g.values)).map fun r =>
    let v := r.1.2 / r.2.1 * r.2.2
    (r.1.1, if XF.lt v (.fin 0.01) then .fin 0 else v))

/-- radiation.py:77-87: the daily values for method 'pot_rad_via_ssd' -/
def ssdDaily (daily : Frame ℝ) (sun : Option (Series SunTimes)) (potDaily : Series (XF ℝ)) (par : ParPair ℝ) : Py (Series (XF ℝ)) :=
  match sun with
  | none => .error .attributeError
  | some sun => do
    let dates := Series.index (sun.filter fun r => decide (XF.lt (.fin 0) r.2.daylength))
    let ssd ← (← daily.attr "ssd").locAll dates
    let dl ← Series.locAll (sun.map fun r => (r.1, r.2.daylength)) dates
    let pot ← potDaily.locAll dates
    let r ← angstroem ssd dl pot par
    .ok (daily.index.map fun t => (t, if dates.contains t then (r.at? t).getD .nan else .fin 0))

/-- radiation.py:32-101 `disaggregate_radiation`; `par` are (angstr_a, angstr_b) for 'pot_rad_via_ssd' and (bristcamp_a, bristcamp_c) for
'pot_rad_via_bc' -/
def disaggregateRadiation (api : PandasApi) (daily : Frame ℝ) (sun : Option (Series SunTimes) := none) (pot : Option (Series (XF ℝ)) := none)
    (method : String := "pot_rad") (angstr : ParPair ℝ := .scalar (.fin 0.25) (.fin 0.5)) (bristcamp : ParPair ℝ := .scalar (.fin 0.75) (.fin 2.4))
    (course : Option (MeanCourse ℝ) := none) : Py (Series (XF ℝ)) := do
  if ¬ (method = "pot_rad" ∨ method = "pot_rad_via_ssd" ∨ method = "pot_rad_via_bc" ∨ method = "mean_course") then .error .valueError
  else
  let index ← hourlyIndex api daily.index
  if method = "mean_course" then
    match course with
    | none => .error .assertionError
    | some course => do
      let vals ← index.mapM fun t => course.lookup (monthOf t) (hourOf t)
      radiationCore (index.zip vals) (← daily.attr "glob")
  else
    match pot with
    | none => .error .assertionError
    | some pot =>
      if method = "pot_rad" then do radiationCore pot (← daily.attr "glob")
      else if method = "pot_rad_via_ssd" then do radiationCore pot (← ssdDaily daily sun (pot.resampleD meanSkip) angstr)
      else do
        let tmin ← daily.attr "tmin"
        let tmax ← daily.attr "tmax"
        radiationCore pot (← bristowCampbell tmin tmax (pot.resampleD meanSkip) bristcamp)

/-! ## potential_radiation -/

/-- radiation.py:147-158: solar declination in rad (a constant times a cosine, not the formula of `get_sun_times`) -/
def solarDecline (doy : Int) : ℝ := deg2rad 23.43697 * Real.cos (2 * Real.pi * ((doy : ℝ) - 173) / 365.25)

/-- radiation.py:161-163: hour angle in rad; seconds are ignored -/
def hourAngle (h mi : Int) (lon tz : ℝ) : ℝ := Real.pi * (((h : ℝ) + (mi : ℝ) / 60 + (lon - tz * 15) * 24 / 360) / 12 - 1)

/-- radiation.py:166-168: cosine of the solar zenith angle before clipping -/
def cosZenithRaw (decl lat ha : ℝ) : ℝ := Real.sin decl * Real.sin (deg2rad lat) + Real.cos decl * Real.cos (deg2rad lat) * Real.cos ha

/-- radiation.py:177-184: ratio for the eccentricity of the orbit -/
def radiusRatio (doy : Int) : ℝ :=
  let beta := 2 * Real.pi * ((doy : ℝ) / 365.25)
  1.00011 + 0.034221 * Real.cos beta + 0.00128 * Real.sin beta + 0.000719 * Real.cos (2 * beta) + 0.000077 * Real.sin (2 * beta)

/-- radiation.py:166-197 for one date: direct and diffuse radiation -/
def potRadCell (doy h mi : Int) (lon lat tz slope azimuth cloud : ℝ) : XF ℝ × XF ℝ :=
  let decl := solarDecline doy
  let ha := hourAngle h mi lon tz
  let cosz := max (cosZenithRaw decl lat ha) 0
  let z := XF.arccos (.fin cosz)
  let transDirect := (0.6 + 0.2 * cosz) * (1 - cloud)
  let transDiffuse := (0.3 + 0.1 * cosz) * cloud
  let s := 1367 * radiusRatio doy
  let mu := XF.arcsin (.fin (Real.cos decl * Real.sin ha) / XF.sin z)
  let cosi := .fin (Real.cos slope * cosz) + .fin (Real.sin slope) * XF.sin z * XF.cos (mu - .fin azimuth)
  let direct := .fin (s * transDirect) * cosi
  let diffuse := .fin (s * transDiffuse * cosz)
  (XF.clipMin0 direct, diffuse)

/-- radiation.py:104-204 `potential_radiation` with `split=True`: direct and diffuse radiation for every date.  Simplification: exact real
arithmetic, so `cos_solar_zenith` never exceeds 1. -/
def potentialRadiationSplit (dates : List Time) (lon lat tz slope azimuth cloud : ℝ) : Series (XF ℝ × XF ℝ) :=
  dates.map fun t => (t, potRadCell (doyOf t) (hourOf t) (minuteOf t) lon lat tz slope azimuth cloud)

/-- radiation.py:104-204 `potential_radiation` -/
def potentialRadiation (dates : List Time) (lon lat tz : ℝ) (slope azimuth cloud : ℝ := 0) : Series (XF ℝ) :=
  (potentialRadiationSplit dates lon lat tz slope azimuth cloud).map fun r => (r.1, r.2.1 + r.2.2)

end

end Melodist
