import Verif.Model.Station

/-!
# Model of melodist/stationstatistics.py, the part that fits parameters (lines 39-192)

A `StationStatistics` object is a value; every method returns the object after the call, also when it raises (what happened before the exception stays).
The optimisers of scipy are arbitrary functions of the data they are given.  JSON export and import are in `Verif/Model/Json.lean`.
-/

set_option linter.unusedSectionVars false

namespace Melodist

noncomputable section

/-- a `StationStatistics` object with its hourly data (stationstatistics.py:39-61) -/
structure StatsObj where
  obj : StatObj := {}
  data : Option (Frame ℝ) := none

/-- the object after a call, and the exception raised (if any) -/
abbrev StatsOut := StatsObj × Option PyErr

/-- `df.index.resolution == 'hour'`: all labels are full hours, and not all of them are midnights -/
def hourResolution (idx : List Time) : Bool := (idx.all fun t => t % HOUR == 0) && idx.any fun t => t % DAY != 0

namespace StatsObj

/-- stationstatistics.py:67-73, the setter of `data` (the third field of the argument, `index.freq`, is irrelevant) -/
def setData (s : StatsObj) (arg : DailyArg) : StatsOut :=
  match arg with
  | .other => (s, some .assertionError)
  | .frame f datetime _ =>
    if datetime = false then (s, some .assertionError)
    else if hourResolution f.index = false then (s, some .assertionError)
    else ({ s with data := some f }, none)

/-- stationstatistics.py:39-61: the constructor.  (The data are assigned before the bunches exist; if that raises there is no object.) -/
def new (data : Option DailyArg) (lon lat tz : Option ℝ) : Py StatsObj :=
  match data with
  | none => .ok { obj := { lon := lon, lat := lat, tz := tz } }
  | some d =>
    match setData { obj := { lon := lon, lat := lat, tz := tz } } d with
    | (s, none) => .ok s
    | (_, some e) => .error e

/-! ## Precipitation, wind, humidity, temperature -/

/-- the months 1..12 as one season -/
def wholeYear : List Int := [1, 2, 3, 4, 5, 6, 7, 8, 9, 10, 11, 12]

/-- one entry of the list returned by `build_casc`, as it is passed to `disagg_prec` later -/
def asOptions : CascStats ℝ ⊕ List (CascStats ℝ) → CascOptions ℝ
  | .inl s => .one s
  | .inr l => .many l

/-- the exception of `build_casc` for the first season when there is no usable data: `seasonal_subset` raises UnboundLocalError for an empty list of
months, otherwise the exception `e` of the access to the data -/
def firstSeasonError (months : List (List Int)) (e : PyErr) : Option PyErr :=
  match months with
  | [] => none
  | [] :: _ => some .unboundLocalError
  | (_ :: _) :: _ => some e

/-- stationstatistics.py:75-94 `calc_precipitation_stats`.  `build_casc` fills the missing values of the column precip of the object's data with 0. -/
def calcPrecipitation (s : StatsObj) (months : Option (List (List Int))) (avgStats : Bool) (percentile : ℝ) : StatsOut :=
  let ms := months.getD [wholeYear]
  let s : StatsObj := { s with obj := { s.obj with precip := { s.obj.precip with months := some ms } } }
  let store (s : StatsObj) (l : List (CascOptions ℝ)) : StatsObj :=
    { s with obj := { s.obj with precip := { s.obj.precip with stats := some l } } }
  match s.data with
  | none =>
    match firstSeasonError ms .attributeError with
    | some e => (s, some e)
    | none => (store s [], none)
  | some f =>
    match f.col? "precip" with
    | none =>
      match firstSeasonError ms .keyError with
      | some e => (s, some e)
      | none => (store s [], none)
    | some p =>
      let (p, r) := buildCasc p true 9 (some ms) avgStats percentile
      let s : StatsObj := { s with data := some (World.replaceCol f "precip" p.values) }
      match r with
      | .error e => (s, some e)
      | .ok l => (store s (l.map asOptions), none)

/-- stationstatistics.py:96-101 `calc_wind_stats`; `optimise` stands for scipy's `curve_fit` -/
def calcWind (optimise : List (ℝ × Int × ℝ) → Py (ℝ × ℝ × ℝ)) (s : StatsObj) : StatsOut :=
  match s.data with
  | none => (s, some .attributeError)
  | some f =>
    match (do fitCosineFunction optimise (← f.attr "wind")) with
    | .error e => (s, some e)
    | .ok (a, b, t) => ({ s with obj := { s.obj with wind := { a := some a, b := some b, tShift := some t } } }, none)

/-- stationstatistics.py:103-111 `calc_humidity_stats`.  A regression on one single point (NaN parameters) is outside the model. -/
def calcHumidity (s : StatsObj) : StatsOut :=
  match s.data with
  | none => (s, some .typeError)
  | some f =>
    match dewpointRegression f with
    | .error e => (s, some e)
    | .ok (.fin a1, .fin a0) =>
      let s : StatsObj := { s with obj := { s.obj with hum := { s.obj.hum with a0 := some a0, a1 := some a1, kr := some 12 } } }
      match monthHourPrecipMean f with
      | .error e => (s, some e)
      | .ok table => ({ s with obj := { s.obj with hum := { s.obj.hum with table := some table } } }, none)
    | .ok _ => (s, some .unmodelled)

/-- stationstatistics.py:113-122 `calc_temperature_stats` -/
def calcTemperature (s : StatsObj) : StatsOut :=
  match s.data with
  | none => (s, some .attributeError)
  | some f =>
    match f.attr "temp" with
    | .error e => (s, some e)
    | .ok temp =>
      match s.obj.lon, s.obj.lat, s.obj.tz with
      | some lon, some lat, some tz =>
        ({ s with obj := { s.obj with temp := {
            maxDelta := some (getShiftByData temp lon lat tz), course := some (meanDailyCourseByMonth temp true) } } }, none)
      | _, _, _ => (s, some .typeError)

/-! ## Radiation -/

/-- one day of the data a radiation model is fitted to: the day and four values -/
abbrev FitRow := Time × XF ℝ × XF ℝ × XF ℝ × XF ℝ

/-- the daily data of `pd.DataFrame(data=dict(…)).dropna(how='any')`: the labels of `a` at which all four series have a number.  (The series are daily
series; in the code the rows are in the order of the joined index, which is that of `a` for sorted data.) -/
def fitFrame (a b c d : Series (XF ℝ)) : List FitRow :=
  a.filterMap fun r =>
    match Series.at? b r.1, Series.at? c r.1, Series.at? d r.1 with
    | some y, some z, some u => if r.2.isNan || y.isNan || z.isNan || u.isNan then none else some (r.1, r.2, y, z, u)
    | _, _, _ => none

/-- stationstatistics.py:158-159 `extract_months` -/
def extractMonths {V : Type} (s : Series V) (months : List Int) : Series V := s.filter fun r => months.contains (monthOf r.1)

/-- `tab.loc[month] = value` for one column: the row is replaced, or appended if there is none -/
def setRow (tab : List (Int × XF ℝ)) (month : Int) (x : XF ℝ) : List (Int × XF ℝ) :=
  if tab.any fun r => r.1 == month then tab.map fun r => if r.1 == month then (month, x) else r else tab ++ [(month, x)]

/-- `for month in months: tab.loc[month] = a, b` -/
def setRows (months : List Int) (ab : XF ℝ × XF ℝ) (tab : List (Int × XF ℝ) × List (Int × XF ℝ)) : List (Int × XF ℝ) × List (Int × XF ℝ) :=
  months.foldl (fun t m => (setRow t.1 m ab.1, setRow t.2 m ab.2)) tab

/-- the loops of stationstatistics.py:162-171 and 183-192: fit on the rows of the months, store; the first exception ends it -/
def fitLoop (fit : List FitRow → Py (XF ℝ × XF ℝ)) (rows : List Int → List FitRow) :
    List (List Int) → List (Int × XF ℝ) × List (Int × XF ℝ) → (List (Int × XF ℝ) × List (Int × XF ℝ)) × Option PyErr
  | [], tab => (tab, none)
  | months :: rest, tab =>
    match fit (rows months) with
    | .error e => (tab, some e)
    | .ok ab => fitLoop fit rows rest (setRows months ab tab)

/-- stationstatistics.py:148-153: the month groups, and whether they are an iterator that can be run through only once (`zip(…)`) -/
def monthRanges (how : String) : List (List Int) × Bool :=
  if how = "all" then ([wholeYear], false)
  else if how = "seasonal" then ([[3, 4, 5], [6, 7, 8], [9, 10, 11], [12, 1, 2]], false)
  else (wholeYear.map fun m => [m], true)

/-- stationstatistics.py:161-192: the two fits for daily data `f`, given daily potential and observed radiation -/
def fitRadiation (angFit bcFit : List FitRow → Py (XF ℝ × XF ℝ)) (s : StatsObj) (f : Frame ℝ) (dayLength : Option (Series (XF ℝ))) (how : String)
    (pot obs : Series (XF ℝ)) : StatsOut :=
  let (ranges, once) := monthRanges how
  -- the Angstroem loop; `left` are the month groups the second loop still finds
  let (s, e, left) : StatsObj × Option PyErr × List (List Int) :=
    match f.col? "ssd", dayLength with
    | some ssd, some dl =>
      let rows months := fitFrame (extractMonths ssd months) (extractMonths dl months) (extractMonths pot months) (extractMonths obs months)
      let (tab, e) := fitLoop angFit rows ranges (s.obj.glob.angA, s.obj.glob.angB)
      ({ s with obj := { s.obj with glob := { s.obj.glob with angA := tab.1, angB := tab.2 } } }, e, if once then [] else ranges)
    | _, _ => (s, none, ranges)
  match e with
  | some e => (s, some e)
  | none =>
    match f.col? "tmin", f.col? "tmax" with
    | some tmin, some tmax =>
      let df := fitFrame tmin tmax pot obs
      let rows (months : List Int) := df.filter fun r => months.contains (monthOf r.1)
      let (tab, e) := fitLoop bcFit rows left (s.obj.glob.bcA, s.obj.glob.bcC)
      ({ s with obj := { s.obj with glob := { s.obj.glob with bcA := tab.1, bcC := tab.2 } } }, e)
    | _, _ => (s, none)

/-- stationstatistics.py:124-192 `calc_radiation_stats`.  `angFit` and `bcFit` stand for scipy's optimisers applied to the rows (ssd, day length, potential,
observed) and (tmin, tmax, potential, observed). -/
def calcRadiation (api : PandasApi) (angFit bcFit : List FitRow → Py (XF ℝ × XF ℝ)) (s : StatsObj) (daily : Option (Frame ℝ))
    (dayLength : Option (Series (XF ℝ))) (how : String) : StatsOut :=
  if ¬ (how = "all" ∨ how = "seasonal" ∨ how = "monthly") then (s, some .assertionError)
  else
    match s.data with
    | none => (s, some .attributeError)
    | some data =>
      match data.attr "glob" with
      | .error e => (s, some e)
      | .ok glob =>
        let s : StatsObj := { s with obj := { s.obj with glob := { s.obj.glob with course := some (meanDailyCourseByMonth glob) } } }
        match daily with
        | none => (s, none)
        | some f =>
          match hourlyIndex api f.index with
          | .error e => (s, some e)
          | .ok hours =>
            match s.obj.lon, s.obj.lat, s.obj.tz with
            | some lon, some lat, some tz =>
              fitRadiation angFit bcFit s f dayLength how ((potentialRadiation hours lon lat tz).resampleD meanSkip) (glob.resampleD meanSkip)
            | _, _, _ => (s, some .typeError)

end StatsObj

end

end Melodist
