import Verif.Model.Util
import Verif.Model.UtilPhys
import Mathlib.Data.List.Dedup

/-!
# Model of melodist/humidity.py
-/

set_option linter.unusedSectionVars false

namespace Melodist

/-- binary arithmetic between two pandas Series: cell by cell for equal indexes, otherwise on the sorted union of the labels with NaN
for labels that are missing on one side.  (Different indexes with duplicates are outside the scope of the model.) -/
def Series.align {K : Type} (f : XF K → XF K → XF K) (a b : Series (XF K)) : Py (Series (XF K)) :=
  if a.index = b.index then .ok (List.zipWith (fun r q => (r.1, f r.2 q.2)) a b)
  else if a.index.Nodup ∧ b.index.Nodup then
    .ok (((a.index ++ b.index).dedup.insertionSort (· ≤ ·)).map fun t => (t, f ((a.at? t).getD .nan) ((b.at? t).getD .nan)))
  else .error .unmodelled

/-- in-place arithmetic `a -= b`: the result has the index of `a` -/
def Series.alignLeft {K : Type} (f : XF K → XF K → XF K) (a b : Series (XF K)) : Py (Series (XF K)) := do
  let r ← Series.align f a b
  if a.index = b.index then .ok r else r.reindex a.index

/-- the categorical means of `calculate_month_hour_precip_mean`: (month, hour, wet) → mean -/
abbrev CatMeans (K : Type) := List ((Int × Int × Bool) × XF K)

/-- `table.loc[keys].values`: KeyError if a key is absent -/
def CatMeans.loc {K : Type} (table : CatMeans K) (keys : List (Int × Int × Bool)) : Py (List (XF K)) :=
  keys.mapM fun k => match table.find? fun r => r.1 == k with
    | some r => .ok r.2
    | none => .error .keyError

noncomputable section

/-- humidity.py:76-78: eq. (21) of Debele et al. (2007) at hour `h` -/
def tdewDelta (kr : ℝ) (h : Int) : XF ℝ :=
  .fin 0.5 * XF.sin (.fin (((h : ℝ) + 1) * Real.pi / kr - 3 * Real.pi / 4))

/-- humidity.py:73-86: dew point for 'linear_dewpoint_variation'; `temp` contributes only its hours (and must have as many rows).
`tdew.shift(-24)` with the last 24 rows taken from `tdew`. -/
def linearDewpoint (kr : ℝ) (tdew temp : Series (XF ℝ)) : Py (Series (XF ℝ)) :=
  if temp.length = tdew.length then
    let next : Series (XF ℝ) := tdew.zipIdx.map fun (r, k) =>
      (r.1, if tdew.length ≤ k + 24 then r.2 else (tdew.values[k + 24]?).getD .nan)
    .ok ((tdew.zip (next.zip temp)).map fun (r, nx, tp) =>
      (r.1, r.2 + (.fin ((hourOf tp.1 : ℝ) / 24) * (nx.2 - r.2) + tdewDelta kr (hourOf tp.1))))
  else .error .valueError

/-- humidity.py:64-90: the methods 'minimal', 'dewpoint_regression' and 'linear_dewpoint_variation'.  The vapour pressures are plain
arrays, combined by position; ValueError when `temp` has another length than the hourly dew point. -/
def humidityDewpoint (api : PandasApi) (daily : Frame ℝ) (method : String) (temp : Option (Series (XF ℝ))) (a0 a1 kr : Option ℝ) :
    Py (Series (XF ℝ)) := do
  let a0 := if method = "minimal" then some 0 else a0
  let a1 := if method = "minimal" then some 1 else a1
  match a0, a1 with
  | some a0, some a1 => do
    let tmin ← daily.attr "tmin"
    let tdewDaily : Series (XF ℝ) := tmin.map fun r => (r.1, .fin a0 + .fin a1 * r.2)
    let tdew ← distributeEqually api tdewDaily
    let kr ← (if method = "linear_dewpoint_variation" then
        match kr with
        | none => throw .assertionError
        | some kr => if kr = 6 ∨ kr = 12 then .ok kr else throw .assertionError
      else .ok 0 : Py ℝ)
    match temp with
    | none => .error .attributeError
    | some temp => do
      let tdew ← if method = "linear_dewpoint_variation" then linearDewpoint kr tdew temp else .ok tdew
      let es ← vaporPressureScalar tdew.values (.fin 100)
      let e ← vaporPressureScalar temp.values (.fin 100)
      if es.length ≠ e.length then .error .valueError
      else Series.make temp.index (List.zipWith (fun x y => .fin 100 * x / y) es e)
  | _, _ => throw .assertionError

/-- humidity.py:91-101: method 'min_max' -/
def humidityMinMax (api : PandasApi) (daily : Frame ℝ) (temp : Option (Series (XF ℝ))) : Py (Series (XF ℝ)) := do
  if !(daily.has "hum_min" && daily.has "hum_max") then throw .assertionError
  let hmin ← distributeEqually api (← daily.attr "hum_min")
  let hmax ← distributeEqually api (← daily.attr "hum_max")
  let tmin ← distributeEqually api (← daily.attr "tmin")
  let tmax ← distributeEqually api (← daily.attr "tmax")
  match temp with
  | none => .error .typeError
  | some temp => do
    let a ← Series.align (· - ·) temp tmin
    let b ← Series.align (· - ·) tmax tmin
    let q ← Series.align (· / ·) a b
    let c ← Series.align (· - ·) hmin hmax
    let p ← Series.align (· * ·) q c
    Series.align (· + ·) hmax p

/-- humidity.py:102-110: method 'month_hour_precip_mean' -/
def humidityCategorical (api : PandasApi) (daily : Frame ℝ) (table : Option (CatMeans ℝ)) : Py (Series (XF ℝ)) := do
  match table with
  | none => throw .assertionError
  | some table => do
    let precip ← distributeEqually api (← daily.attr "precip")
    let vals ← table.loc (precip.map fun r => (monthOf r.1, hourOf r.1, decide (XF.lt (.fin 0) r.2)))
    Series.make precip.index vals

/-- humidity.py:112-118: the correction with the observed daily means -/
def preserveDailyMean (api : PandasApi) (daily : Frame ℝ) (hum : Series (XF ℝ)) : Py (Series (XF ℝ)) := do
  let obs ← daily.attr "hum"
  let diff ← Series.align (· - ·) (hum.resampleD meanSkip) obs
  let bias ← distributeEqually api diff
  let bias : Series (XF ℝ) := bias.map fun r => (r.1, if r.2.isNan then .fin 0 else r.2)
  Series.alignLeft (· - ·) hum bias

/-- humidity.py:52-110: the values before the correction and the clipping -/
def humidityRaw (api : PandasApi) (daily : Frame ℝ) (method : String) (temp : Option (Series (XF ℝ)))
    (a0 a1 kr : Option ℝ) (table : Option (CatMeans ℝ)) : Py (Series (XF ℝ)) := do
  if ¬ (method = "equal" ∨ method = "minimal" ∨ method = "dewpoint_regression" ∨ method = "min_max" ∨
      method = "linear_dewpoint_variation" ∨ method = "month_hour_precip_mean") then throw .assertionError
  if method = "equal" then do distributeEqually api (← daily.attr "hum")
  else if method = "minimal" ∨ method = "dewpoint_regression" ∨ method = "linear_dewpoint_variation" then
    humidityDewpoint api daily method temp a0 a1 kr
  else if method = "min_max" then humidityMinMax api daily temp
  else humidityCategorical api daily table

/-- humidity.py:28-120 `disaggregate_humidity` -/
def disaggregateHumidity (api : PandasApi) (daily : Frame ℝ) (method : String := "equal") (temp : Option (Series (XF ℝ)) := none)
    (a0 a1 kr : Option ℝ := none) (table : Option (CatMeans ℝ) := none) (preserve : Bool := false) : Py (Series (XF ℝ)) := do
  let hum ← humidityRaw api daily method temp a0 a1 kr table
  let hum ← if preserve then preserveDailyMean api daily hum else .ok hum
  .ok (hum.map fun r => (r.1, r.2.clip 0 100))

end

section
variable {K : Type} [Field K] [LinearOrder K]

/-- humidity.py:133-141 `calculate_month_hour_precip_mean`.  `daily_precip_yesno.loc[hum.index.date]` finds the day of every row because
`resample` has a row for every day of the span. -/
def monthHourPrecipMean (obs : Frame K) : Py (CatMeans K) := do
  let precip ← obs.attr "precip"
  let daily := precip.resampleD sumSkip
  let hum ← obs.attr "hum"
  let keyed : List ((Int × Int × Bool) × XF K) := hum.map fun r =>
    ((monthOf r.1, hourOf r.1, decide (XF.lt (.fin 0) ((daily.at? (midnight (dayOf r.1))).getD .nan))), r.2)
  .ok ((keyed.map Prod.fst).dedup.map fun k => (k, meanSkip ((keyed.filter fun r => r.1 == k).map Prod.snd)))

/-- util.py:137-157 `linregress` (with `return_stats=False`), which is scipy.stats.linregress on numbers, as (slope, intercept): ValueError for no data or for equal x values; one single point gives
NaN -/
def linregress (pts : List (K × K)) : Py (XF K × XF K) :=
  let n : K := pts.length
  let mx := (pts.map Prod.fst).sum / n
  let my := (pts.map Prod.snd).sum / n
  let ssx := (pts.map fun p => (p.1 - mx) * (p.1 - mx)).sum
  let ssxy := (pts.map fun p => (p.1 - mx) * (p.2 - my)).sum
  if pts = [] then .error .valueError
  else if 1 < pts.length ∧ ∀ p ∈ pts, ∀ q ∈ pts, p.1 = q.1 then .error .valueError
  else
    let slope : XF K := .fin ssxy / .fin ssx
    .ok (slope, .fin my - slope * .fin mx)

/-- a pair of numbers as a point for the regression -/
def finPoint : XF K × XF K → Py (K × K)
  | (.fin x, .fin y) => .ok (x, y)
  | _ => .error .unmodelled

end

noncomputable section

/-- humidity.py:123-130 `calculate_dewpoint_regression` (with `return_stats=False`): (a1, a0).  Infinite values are outside the scope. -/
def dewpointRegression (obs : Frame ℝ) : Py (XF ℝ × XF ℝ) := do
  let temp ← obs.item "temp"
  let hum ← obs.item "hum"
  let td ← dewpointTemperature temp.values hum.values
  let tdew := Series.resampleD meanSkip (temp.index.zip td)
  let tmin := temp.groupbyDate minSkip
  let rows := (tdew.map fun r => ((tmin.at? r.1).getD .nan, r.2)).filter fun r => !r.1.isNan && !r.2.isNan
  let pts ← rows.mapM finPoint
  linregress pts

end

end Melodist
