import Verif.Model.Wind
import Verif.Model.Humidity
import Verif.Model.Temperature
import Verif.Model.Radiation
import Verif.Model.Precip
import Verif.Model.Aggregate

/-!
# Model of melodist/station.py

A Python program that works with stations is a sequence of operations on a heap (`World`) of `Station` objects, `StationStatistics` objects and the
`data_disagg` frames.  Stations refer to their statistics object and to their frame by address, because both are changed in place and may be shared
(two stations given the same statistics object, `copy.copy(station)`).  Daily data and sun times are only ever rebound, so they are values.  An
operation returns the new heap also when it raises: what happened before the exception stays.

Not modelled: the attributes `id` and `name` (stored and never used), tampering with the private fields or with the frames from outside.
-/

set_option linter.unusedSectionVars false

namespace Melodist

noncomputable section

/-- `statistics.wind` (stationstatistics.py:48) -/
structure WindStats where
  a : Option ℝ := none
  b : Option ℝ := none
  tShift : Option ℝ := none

/-- `statistics.precip` (stationstatistics.py:49): the months of each season and its cascade statistics -/
structure PrecipStats where
  months : Option (List (List Int)) := none
  stats : Option (List (CascOptions ℝ)) := none

/-- `statistics.hum` (stationstatistics.py:50) -/
structure HumStats where
  a0 : Option ℝ := none
  a1 : Option ℝ := none
  kr : Option ℝ := none
  table : Option (CatMeans ℝ) := none

/-- `statistics.temp` (stationstatistics.py:51) -/
structure TempStats where
  maxDelta : Option (List (Int × XF ℝ)) := none
  course : Option (MeanCourse ℝ) := none

/-- one value for each of the months 1..12 -/
def allMonths (x : XF ℝ) : List (Int × XF ℝ) := (List.range 12).map fun k : Nat => ((k : Int) + 1, x)

/-- `statistics.glob` (stationstatistics.py:53-61): columns a, b of `angstroem`, columns a, c of `bristcamp`, each by month -/
structure GlobStats where
  angA : List (Int × XF ℝ) := allMonths (.fin 0.25)
  angB : List (Int × XF ℝ) := allMonths (.fin 0.75)
  bcA : List (Int × XF ℝ) := allMonths (.fin 0.75)
  bcC : List (Int × XF ℝ) := allMonths (.fin 2.4)
  course : Option (MeanCourse ℝ) := none

/-- a `StationStatistics` object (stationstatistics.py:39-61); its own hourly data are in `Verif/Model/StationStatistics.lean` -/
structure StatObj where
  lon : Option ℝ := none
  lat : Option ℝ := none
  tz : Option ℝ := none
  wind : WindStats := {}
  precip : PrecipStats := {}
  hum : HumStats := {}
  temp : TempStats := {}
  glob : GlobStats := {}

/-- a `Station` object; `stat` and `disagg` are addresses -/
structure StationObj where
  lon : Option ℝ := none
  lat : Option ℝ := none
  tz : Option ℝ := none
  stat : Nat := 0
  daily : Option (Frame ℝ) := none
  disagg : Option Nat := none
  sun : Option (Series SunTimes) := none

/-- all objects; addresses below the counters are in use -/
structure World where
  stations : Nat → StationObj := fun _ => {}
  nStations : Nat := 0
  stats : Nat → StatObj := fun _ => {}
  nStats : Nat := 0
  frames : Nat → Frame ℝ := fun _ => ⟨[], []⟩
  nFrames : Nat := 0

/-- the heap after an operation, and the exception it raised (if any) -/
abbrev Out := World × Option PyErr

namespace World

/-- replace a station object -/
def setStation (w : World) (i : Nat) (s : StationObj) : World := { w with stations := Function.update w.stations i s }

/-- replace a statistics object -/
def setStat (w : World) (o : Nat) (s : StatObj) : World := { w with stats := Function.update w.stats o s }

/-- replace a frame -/
def setFrame (w : World) (k : Nat) (f : Frame ℝ) : World := { w with frames := Function.update w.frames k f }

/-- the statistics object of a station -/
def statOf (w : World) (i : Nat) : StatObj := w.stats (w.stations i).stat

/-! ## Attribute assignments -/

/-- station.py:115-118: `station.lon = x` -/
def setLon (w : World) (i : Nat) (x : Option ℝ) : World :=
  let w := w.setStation i { w.stations i with lon := x }
  w.setStat (w.stations i).stat { w.statOf i with lon := x }

/-- station.py:127-130: `station.lat = x` -/
def setLat (w : World) (i : Nat) (x : Option ℝ) : World :=
  let w := w.setStation i { w.stations i with lat := x }
  w.setStat (w.stations i).stat { w.statOf i with lat := x }

/-- station.py:142-145: `station.timezone = x` -/
def setTz (w : World) (i : Nat) (x : Option ℝ) : World :=
  let w := w.setStation i { w.stations i with tz := x }
  w.setStat (w.stations i).stat { w.statOf i with tz := x }

/-- station.py:155-161: `station.statistics = s`; `none` stands for an object that is not a `StationStatistics` -/
def setStatistics (w : World) (i : Nat) (s : Option Nat) : Out :=
  match s with
  | none => (w, some .assertionError)
  | some o =>
    let st := w.stations i
    let w := w.setStat o { w.stats o with lon := st.lon, lat := st.lat, tz := st.tz }
    (w.setStation i { st with stat := o }, none)

/-- `melodist.StationStatistics(lon=lon, lat=lat, timezone=tz)` (stationstatistics.py:39-61) -/
def newStatistics (w : World) (lon lat tz : Option ℝ) : World × Nat :=
  ({ w with stats := Function.update w.stats w.nStats { lon := lon, lat := lat, tz := tz }, nStats := w.nStats + 1 }, w.nStats)

/-! ## Sun times and daily data -/

/-- station.py:172-179 `calc_sun_times`: AttributeError without daily data, TypeError when a coordinate or the time zone is None -/
def calcSunTimes (w : World) (i : Nat) : Out :=
  let st := w.stations i
  match st.daily with
  | none => (w, some .attributeError)
  | some f =>
    match st.lon, st.lat, st.tz with
    | some lon, some lat, some tz => (w.setStation i { st with sun := some (getSunTimes f.index lon lat tz) }, none)
    | _, _, _ => (w, some .typeError)

end World

/-- `df.reindex(idx)`: ValueError on duplicate labels, NaN in new rows -/
def Frame.reindex {K : Type} (f : Frame K) (idx : List Time) : Py (Frame K) :=
  if f.index.Nodup then
    .ok ⟨idx, f.cols.map fun c => (c.1, idx.map fun t => (Series.at? (f.index.zip c.2) t).getD .nan)⟩
  else .error .valueError

/-- what is assigned to `station.data_daily`: a frame (with a `DatetimeIndex` or not, with `index.freq` set or None), or another object -/
inductive DailyArg where
  | frame (f : Frame ℝ) (datetime hasFreq : Bool)
  | other

/-- `df.index.resolution == 'day'`: every label is a midnight -/
def dayResolution (idx : List Time) : Bool := idx.all fun t => t % DAY == 0

/-- station.py:92-96: none of the columns tmin, tmax, tmean has a value below 200 (NaN compares false) -/
def plausibleTemps (f : Frame ℝ) : Prop :=
  ∀ name ∈ ["tmin", "tmax", "tmean"], ∀ s, f.col? name = some s → ∀ r ∈ s, ¬ XF.lt r.2 (.fin 200)

open Classical in
/-- station.py:81-96: the checks of the `data_daily` setter, and the frame that will be stored -/
def checkDaily (arg : DailyArg) : Py (Frame ℝ) :=
  match arg with
  | .other => .error .assertionError
  | .frame f datetime hasFreq =>
    if datetime = false then .error .assertionError
    else if dayResolution f.index = false then .error .assertionError
    else if ¬ f.index.Pairwise (· ≤ ·) then .error .assertionError
    else do
      let f ← if hasFreq then .ok f else
        match f.index.head?, f.index.getLast? with
        | some a, some b => f.reindex (dateRange a b DAY)
        | _, _ => .error .indexError
      if plausibleTemps f then .ok f else .error .assertionError

/-- station.py:45-51 `Station._columns_hourly` -/
def columnsHourly : List String := ["temp", "precip", "glob", "hum", "wind"]

/-- station.py:102: the empty frame for the results -/
def emptyDisagg (idx : List Time) : Frame ℝ := ⟨idx, columnsHourly.map fun c => (c, idx.map fun _ => .nan)⟩

namespace World

/-- station.py:80-106: `station.data_daily = df` -/
def setDaily (api : PandasApi) (w : World) (i : Nat) (arg : DailyArg) : Out :=
  match checkDaily arg with
  | .error e => (w, some e)
  | .ok f =>
    let w := w.setStation i { w.stations i with daily := some f }
    match hourlyIndex api f.index with
    | .error e => (w, some e)
    | .ok idx =>
      let w := { w.setFrame w.nFrames (emptyDisagg idx) with nFrames := w.nFrames + 1 }
      let w := w.setStation i { w.stations i with disagg := some (w.nFrames - 1) }
      if (w.stations i).tz.isSome then w.calcSunTimes i else (w, none)

/-- station.py:53-70: `melodist.Station(lon=…, lat=…, timezone=…, data_daily=…)`; returns the address of the new station -/
def newStation (api : PandasApi) (w : World) (lon lat tz : Option ℝ) (daily : Option DailyArg) : Out :=
  let i := w.nStations
  let w := { w.setStation i {} with nStations := i + 1 }
  let (w, o) := w.newStatistics lon lat none
  let (w, _) := w.setStatistics i (some o)
  let w := ((w.setLon i lon).setLat i lat).setTz i tz
  let w := w.setStation i { w.stations i with sun := none }
  match daily with
  | none => (w, none)
  | some d => w.setDaily api i d

/-- `copy.copy(station)`: a new station object with the same attribute values (the same statistics object and frame) -/
def copyStation (w : World) (i : Nat) : World :=
  { w.setStation w.nStations (w.stations i) with nStations := w.nStations + 1 }

/-! ## Disaggregation -/

/-- the value on the right hand side of `df.name = value` for an existing column: an array is taken by position (ValueError if its length differs), a series
is aligned to the index (ValueError if its index differs and has duplicates) -/
def columnValues (idx : List Time) (r : WindResult) : Py (List (XF ℝ)) :=
  match r with
  | .array l => if l.length = idx.length then .ok l else .error .valueError
  | .series s =>
    if s.index = idx then .ok s.values
    else if s.index.Nodup then .ok (idx.map fun t => (s.at? t).getD .nan)
    else .error .valueError

/-- replace an existing column -/
def replaceCol (f : Frame ℝ) (name : String) (v : List (XF ℝ)) : Frame ℝ :=
  { f with cols := f.cols.map fun c => if c.1 == name then (name, v) else c }

/-- `self.data_disagg.name = value`; the value is computed first -/
def writeCol (w : World) (i : Nat) (name : String) (v : Py WindResult) : Out :=
  match v with
  | .error e => (w, some e)
  | .ok r =>
    match (w.stations i).disagg with
    | none => (w, some .attributeError)
    | some k =>
      match columnValues (w.frames k).index r with
      | .error e => (w, some e)
      | .ok v => (w.setFrame k (replaceCol (w.frames k) name v), none)

/-- `self.data_daily.name`: AttributeError without data or column -/
def dailyAttr (w : World) (i : Nat) (name : String) : Py (Series (XF ℝ)) :=
  match (w.stations i).daily with
  | none => .error .attributeError
  | some f => f.attr name

/-- `self.data_disagg.name` -/
def disaggAttr (w : World) (i : Nat) (name : String) : Py (Series (XF ℝ)) :=
  match (w.stations i).disagg with
  | none => .error .attributeError
  | some k => (w.frames k).attr name

/-- station.py:181-203 `Station.disaggregate_wind` -/
def wind (api : PandasApi) (w : World) (i : Nat) (draw : Nat → ℝ) (method : String) : Out :=
  w.writeCol i "wind" do
    let daily ← w.dailyAttr i "wind"
    let s := (w.statOf i).wind
    disaggregateWind api draw daily method s.a s.b s.tShift

/-- station.py:205-247 `Station.disaggregate_humidity` -/
def humidity (api : PandasApi) (w : World) (i : Nat) (method : String) (preserve : Bool) : Out :=
  w.writeCol i "hum" do
    let temp ← w.disaggAttr i "temp"
    let s := (w.statOf i).hum
    match (w.stations i).daily with
    | none => .error .attributeError
    | some f => do .ok (.series (← disaggregateHumidity api f method (some temp) s.a0 s.a1 s.kr s.table preserve))

/-- station.py:249-303 `Station.disaggregate_temperature`.  Without daily data an invalid method is reported first -/
def temperature (api : PandasApi) (w : World) (i : Nat) (method minMaxTime : String) (modNight : Bool) : Out :=
  w.writeCol i "temp" (
    match (w.stations i).daily with
    | none =>
      if method = "sine_min_max" ∨ method = "sine_mean" ∨ method = "sine" ∨ method = "mean_course_min_max" ∨ method = "mean_course_mean" then
        .error .attributeError
      else .error .valueError
    | some f => do
      let s := (w.statOf i).temp
      .ok (.series (← disaggregateTemperature api f method minMaxTime modNight s.maxDelta s.course (w.stations i).sun)))

/-- `precip_disagg.loc[data.index] = data` (station.py:348): KeyError if a label is absent -/
def locAssign (acc data : Series (XF ℝ)) : Py (Series (XF ℝ)) :=
  if data.all fun r => acc.index.contains r.1 then
    .ok (acc.map fun r => (r.1, match Series.at? data r.1 with | some v => v | none => r.2))
  else .error .keyError

/-- station.py:338-348, the loop over the seasons.  `rnd k` are the random numbers drawn for the k-th season. -/
def seasonLoop (api : PandasApi) (daily : Series (XF ℝ)) (shift : Int) (zerodiv : String) :
    (Nat → Nat → ℝ) → List (List Int × CascOptions ℝ) → Series (XF ℝ) → Py (Series (XF ℝ))
  | _, [], acc => .ok acc
  | rnd, (months, stats) :: rest, acc => do
    let sub ← seasonalSubset daily months
    let acc ←
      if 1 < sub.length then do
        let data ← disaggPrec api (rnd 0) (.series sub) "cascade" (some stats) none zerodiv shift
        locAssign acc data
      else .ok acc
    seasonLoop api daily shift zerodiv (fun k => rnd (k + 1)) rest acc

/-- station.py:333-352: the hourly series computed by `Station.disaggregate_precipitation`.  A method other than the three leaves the variable
`precip_disagg` unassigned. -/
def precipSeries (api : PandasApi) (w : World) (i : Nat) (rnd : Nat → Nat → ℝ) (method zerodiv : String) (shift : Int)
    (master : Option (Series (XF ℝ))) : Py (Series (XF ℝ)) :=
  if method = "equal" then
    match (w.stations i).daily with
    | none => .error .attributeError
    | some f => disaggPrec api (rnd 0) (.frame f) "equal" none none "uniform" shift
  else if method = "cascade" then
    match (w.stations i).disagg with
    | none => .error .attributeError
    | some k =>
      match (w.statOf i).precip.months, (w.statOf i).precip.stats with
      | some months, some stats =>
        match months.zip stats with
        | [] => .ok ((w.frames k).index.map fun t => (t, .nan))
        | seasons => do
          seasonLoop api (← w.dailyAttr i "precip") shift zerodiv rnd seasons ((w.frames k).index.map fun t => (t, .nan))
      | _, _ => .error .typeError
  else if method = "masterstation" then do
    disaggPrec api (rnd 0) (.series (← w.dailyAttr i "precip")) "masterstation" none master zerodiv 0
  else .error .unboundLocalError

/-- station.py:305-354 `Station.disaggregate_precipitation` -/
def precipitation (api : PandasApi) (w : World) (i : Nat) (rnd : Nat → Nat → ℝ) (method zerodiv : String) (shift : Int)
    (master : Option (Series (XF ℝ))) : Out :=
  w.writeCol i "precip" do .ok (.series (← w.precipSeries api i rnd method zerodiv shift master))

/-- station.py:386-389: `pot_rad` as passed on -/
def potRadArg (w : World) (i : Nat) (method : String) (pot : Option (Series (XF ℝ))) : Py (Option (Series (XF ℝ))) :=
  if pot.isNone ∧ method ≠ "mean_course" then
    match (w.stations i).disagg with
    | none => .error .attributeError
    | some k =>
      match (w.stations i).lon, (w.stations i).lat, (w.stations i).tz with
      | some lon, some lat, some tz => .ok (some (potentialRadiation (w.frames k).index lon lat tz))
      | _, _, _ => .error .typeError
  else .ok pot

/-- station.py:386-401: `Station.disaggregate_radiation` after the sun times are there -/
def radiationBody (api : PandasApi) (w : World) (i : Nat) (method : String) (pot : Option (Series (XF ℝ))) : Out :=
  w.writeCol i "glob" do
    let pot ← w.potRadArg i method pot
    let s := (w.statOf i).glob
    match (w.stations i).daily with
    | none => .error .attributeError
    | some f => do
      .ok (.series (← disaggregateRadiation api f (w.stations i).sun pot method (.monthly s.angA s.angB) (.monthly s.bcA s.bcC) s.course))

/-- station.py:356-401 `Station.disaggregate_radiation` -/
def radiation (api : PandasApi) (w : World) (i : Nat) (method : String) (pot : Option (Series (XF ℝ))) : Out :=
  if (w.stations i).sun.isNone then
    match w.calcSunTimes i with
    | (w, some e) => (w, some e)
    | (w, none) => w.radiationBody api i method pot
  else w.radiationBody api i method pot

/-- station.py:403-437 `Station.interpolate` with the default options (returns a series, stores nothing) -/
def interpolate (api : PandasApi) (w : World) (i : Nat) (columnHours : List (String × Int)) (limit : Nat := 24) : Py (Series (XF ℝ)) :=
  match (w.stations i).daily with
  | none => .error .attributeError
  | some f => stationInterpolate api f columnHours limit

end World

/-! ## Programs -/

/-- One statement of a program working with stations.  Stations and statistics objects are named by their address. -/
inductive Op where
  | newStation (lon lat tz : Option ℝ) (daily : Option DailyArg)
  | newStatistics (lon lat tz : Option ℝ)
  | copyStation (i : Nat)
  | setLon (i : Nat) (x : Option ℝ)
  | setLat (i : Nat) (x : Option ℝ)
  | setTz (i : Nat) (x : Option ℝ)
  | setStatistics (i : Nat) (o : Option Nat)
  | setDaily (i : Nat) (arg : DailyArg)
  | calcSunTimes (i : Nat)
  | wind (i : Nat) (draw : Nat → ℝ) (method : String)
  | humidity (i : Nat) (method : String) (preserve : Bool)
  | temperature (i : Nat) (method minMaxTime : String) (modNight : Bool)
  | precipitation (i : Nat) (rnd : Nat → Nat → ℝ) (method zerodiv : String) (shift : Int) (master : Option (Series (XF ℝ)))
  | radiation (i : Nat) (method : String) (pot : Option (Series (XF ℝ)))
  /-- replacing the fitted parameters of a statistics object (`calc_…_stats`, or assignments to its bunches): coordinates stay -/
  | setParams (o : Nat) (wind : WindStats) (precip : PrecipStats) (hum : HumStats) (temp : TempStats) (glob : GlobStats)

/-- executing one statement -/
def World.step (api : PandasApi) (w : World) : Op → Out
  | .newStation lon lat tz daily => w.newStation api lon lat tz daily
  | .newStatistics lon lat tz => ((w.newStatistics lon lat tz).1, none)
  | .copyStation i => (w.copyStation i, none)
  | .setLon i x => (w.setLon i x, none)
  | .setLat i x => (w.setLat i x, none)
  | .setTz i x => (w.setTz i x, none)
  | .setStatistics i o => w.setStatistics i o
  | .setDaily i arg => w.setDaily api i arg
  | .calcSunTimes i => w.calcSunTimes i
  | .wind i draw method => w.wind api i draw method
  | .humidity i method preserve => w.humidity api i method preserve
  | .temperature i method mm modNight => w.temperature api i method mm modNight
  | .precipitation i rnd method zerodiv shift master => w.precipitation api i rnd method zerodiv shift master
  | .radiation i method pot => w.radiation api i method pot
  | .setParams o wind precip hum temp glob =>
    (w.setStat o { w.stats o with wind := wind, precip := precip, hum := hum, temp := temp, glob := glob }, none)

/-- executing a program in which every exception is caught -/
def World.run (api : PandasApi) (w : World) : List Op → World
  | [] => w
  | op :: ops => World.run api (w.step api op).1 ops

/-- the station an operation works on -/
def Op.station : Op → Option Nat
  | .copyStation i | .setLon i _ | .setLat i _ | .setTz i _ | .setStatistics i _ | .setDaily i _ | .calcSunTimes i => some i
  | .wind i _ _ | .humidity i _ _ | .temperature i _ _ _ | .precipitation i _ _ _ _ _ | .radiation i _ _ => some i
  | .newStation _ _ _ _ | .newStatistics _ _ _ | .setParams _ _ _ _ _ _ => none

end

end Melodist
