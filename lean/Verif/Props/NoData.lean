import Verif.Props.StatisticsState
import Verif.Props.Interpolate

/-!
# C150: statistics and interpolation without the data they need
-/

set_option linter.unusedSectionVars false

namespace Melodist
open Spec

namespace Spec

/-- the columns of the hourly data a call reads without asking whether they exist, in the order in which it reads them -/
def neededColumns : StatsObj.Part → List String
  | .data => []
  | .precip => ["precip"]
  | .wind => ["wind"]
  | .hum => ["temp", "hum", "precip"]
  | .temp => ["temp"]
  | .glob => ["glob"]

end Spec

namespace StatsObj

/-- the seasons a call of `calc_precipitation_stats` works on -/
def seasonsOf (months : Option (List (List Int))) : List (List Int) := months.getD [[1, 2, 3, 4, 5, 6, 7, 8, 9, 10, 11, 12]]

/-- **C150** (no data).  On an object without hourly data, every method that calculates statistics raises an exception and leaves the object as it was, except that `calc_precipitation_stats` has
already stored the months it was called with (the statistics remain the earlier ones).  The exception is TypeError for humidity and AttributeError for the others; a first season without months gives
UnboundLocalError, a wrong `how` gives AssertionError. -/
theorem C150_no_data (s : StatsObj) (h : s.data = none) :
    (∀ opt, s.call (.wind opt) = (s, some .attributeError)) ∧ s.call .humidity = (s, some .typeError) ∧ s.call .temperature = (s, some .attributeError) ∧
    (∀ api ang bc daily dl how, s.call (.radiation api ang bc daily dl how) =
      (s, some (if how = "all" ∨ how = "seasonal" ∨ how = "monthly" then .attributeError else .assertionError))) ∧
    (∀ months avg p m ms, seasonsOf months = m :: ms → s.call (.precipitation months avg p) =
      ({ s with obj := { s.obj with precip := { s.obj.precip with months := some (m :: ms) } } }, some (if m = [] then .unboundLocalError else .attributeError))) := by
  refine ⟨fun opt => ?_, ?_, ?_, fun api ang bc daily dl how => ?_, fun months avg p m ms hm => ?_⟩
  · show s.calcWind opt = _
    unfold calcWind
    rw [h]
  · show s.calcHumidity = _
    unfold calcHumidity
    rw [h]
  · show s.calcTemperature = _
    unfold calcTemperature
    rw [h]
  · show s.calcRadiation api ang bc daily dl how = _
    unfold calcRadiation
    by_cases hh : how = "all" ∨ how = "seasonal" ∨ how = "monthly"
    · rw [if_neg (not_not.2 hh), h, if_pos hh]
    · rw [if_pos hh, if_neg hh]
  · show s.calcPrecipitation months avg p = _
    have hm' : months.getD [wholeYear] = m :: ms := hm
    unfold calcPrecipitation
    dsimp only
    rw [hm', h]
    cases m with
    | nil => rfl
    | cons a b => rfl

/-- **C150** (missing columns).  If the hourly data lack a column the method needs, it raises AttributeError (wind, temperature, radiation, and the precipitation that humidity statistics need) or KeyError
(precipitation, and the temperature and humidity for humidity statistics).  Wind, temperature and radiation statistics stay as they were; `calc_precipitation_stats` has already stored the months; humidity
statistics stay as they were unless only the column precip is missing — then the regression parameters are already new, and the table of means is the old one. -/
theorem C150_missing_column (s : StatsObj) (f : Frame ℝ) (h : s.data = some f) :
    (f.col? "wind" = none → ∀ opt, s.call (.wind opt) = (s, some .attributeError)) ∧
    (f.col? "temp" = none → s.call .temperature = (s, some .attributeError)) ∧
    (f.col? "glob" = none → ∀ api ang bc daily dl how, s.call (.radiation api ang bc daily dl how) =
      (s, some (if how = "all" ∨ how = "seasonal" ∨ how = "monthly" then .attributeError else .assertionError))) ∧
    (f.col? "temp" = none ∨ f.col? "hum" = none → s.call .humidity = (s, some .keyError)) ∧
    (f.col? "precip" = none → ∀ a1 a0, dewpointRegression f = .ok (.fin a1, .fin a0) → s.call .humidity =
      ({ s with obj := { s.obj with hum := { s.obj.hum with a0 := some a0, a1 := some a1, kr := some 12 } } }, some .attributeError)) ∧
    (f.col? "precip" = none → ∀ months avg p m ms, seasonsOf months = m :: ms → s.call (.precipitation months avg p) =
      ({ s with obj := { s.obj with precip := { s.obj.precip with months := some (m :: ms) } } }, some (if m = [] then .unboundLocalError else .keyError))) := by
  refine ⟨fun hc opt => ?_, fun hc => ?_, fun hc api ang bc daily dl how => ?_, fun hc => ?_, fun hc a1 a0 hr => ?_, fun hc months avg p m ms hm => ?_⟩
  · show s.calcWind opt = _
    unfold calcWind
    rw [h]
    dsimp only
    unfold Frame.attr
    rw [hc]
    rfl
  · show s.calcTemperature = _
    unfold calcTemperature
    rw [h]
    dsimp only
    unfold Frame.attr
    rw [hc]
  · show s.calcRadiation api ang bc daily dl how = _
    unfold calcRadiation
    by_cases hh : how = "all" ∨ how = "seasonal" ∨ how = "monthly"
    · rw [if_neg (not_not.2 hh), h, if_pos hh]
      dsimp only
      unfold Frame.attr
      rw [hc]
    · rw [if_pos hh, if_neg hh]
  · show s.calcHumidity = _
    have e : dewpointRegression f = .error .keyError := by
      unfold dewpointRegression Frame.item
      rcases hc with hc | hc
      · rw [hc]; rfl
      · rw [hc]
        cases f.col? "temp" <;> rfl
    unfold calcHumidity
    rw [h]
    dsimp only
    rw [e]
  · show s.calcHumidity = _
    have e : monthHourPrecipMean f = .error .attributeError := by
      unfold monthHourPrecipMean Frame.attr
      rw [hc]
      rfl
    unfold calcHumidity
    rw [h]
    dsimp only
    rw [hr]
    dsimp only
    rw [e]
  · show s.calcPrecipitation months avg p = _
    have hm' : months.getD [wholeYear] = m :: ms := hm
    unfold calcPrecipitation
    dsimp only
    rw [hm', h]
    dsimp only
    rw [hc]
    cases m with
    | nil => rfl
    | cons a b => rfl

/-- **C150** (no seasons).  Without any season nothing is read: there are no statistics, and no exception. -/
theorem C150_no_seasons (s : StatsObj) (avg : Bool) (p : ℝ) (h : ∀ f, s.data = some f → f.col? "precip" = none) :
    s.call (.precipitation (some []) avg p) = ({ s with obj := { s.obj with precip := { months := some [], stats := some [] } } }, none) := by
  show s.calcPrecipitation (some []) avg p = _
  unfold calcPrecipitation
  cases hd : s.data with
  | none => rfl
  | some f =>
    dsimp only
    rw [h f hd]
    rfl

/-- **C150** (success needs the columns).  Where a method does not raise an exception, the object has hourly data with the columns it reads (for precipitation: if there is a season at all). -/
theorem C150_success (s : StatsObj) (c : Call) (hd : c.part ≠ .data) (hp : ∀ months avg p, c = .precipitation months avg p → seasonsOf months ≠ [])
    (hok : (s.call c).2 = none) : ∃ f, s.data = some f ∧ ∀ name ∈ neededColumns c.part, ∃ q, f.col? name = some q := by
  cases hs : s.data with
  | none =>
    exfalso
    obtain ⟨h1, h2, h3, h4, h5⟩ := C150_no_data s hs
    cases c with
    | data a => exact hd rfl
    | precipitation months avg p =>
      obtain ⟨m, ms, hm⟩ := List.exists_cons_of_ne_nil (hp _ _ _ rfl)
      rw [h5 _ _ _ _ _ hm] at hok
      cases hok
    | wind opt => rw [h1] at hok; cases hok
    | humidity => rw [h2] at hok; cases hok
    | temperature => rw [h3] at hok; cases hok
    | radiation => rw [h4] at hok; cases hok
  | some f =>
    obtain ⟨h1, h2, h3, h4, h5, h6⟩ := C150_missing_column s f hs
    refine ⟨f, rfl, ?_⟩
    have key : ∀ name, (f.col? name = none → False) → ∃ q, f.col? name = some q := by
      intro name hn
      cases e : f.col? name with
      | none => exact (hn e).elim
      | some q => exact ⟨q, rfl⟩
    cases c with
    | data a => exact absurd rfl hd
    | precipitation months avg p =>
      obtain ⟨m, ms, hm⟩ := List.exists_cons_of_ne_nil (hp _ _ _ rfl)
      intro name hn
      obtain rfl : name = "precip" := by simpa [neededColumns, Call.part] using hn
      refine key _ fun e => ?_
      rw [h6 e _ _ _ _ _ hm] at hok
      cases hok
    | wind opt =>
      intro name hn
      obtain rfl : name = "wind" := by simpa [neededColumns, Call.part] using hn
      refine key _ fun e => ?_
      rw [h1 e] at hok
      cases hok
    | humidity =>
      intro name hn
      have hn : name = "temp" ∨ name = "hum" ∨ name = "precip" := by simpa [neededColumns, Call.part] using hn
      refine key _ fun e => ?_
      rcases hn with rfl | rfl | rfl
      · rw [h4 (.inl e)] at hok
        cases hok
      · rw [h4 (.inr e)] at hok
        cases hok
      · have hok : (s.calcHumidity).2 = none := hok
        have e' : monthHourPrecipMean f = .error .attributeError := by
          unfold monthHourPrecipMean Frame.attr
          rw [e]
          rfl
        unfold calcHumidity at hok
        rw [hs] at hok
        dsimp only at hok
        rw [e'] at hok
        split at hok <;> cases hok
    | temperature =>
      intro name hn
      obtain rfl : name = "temp" := by simpa [neededColumns, Call.part] using hn
      refine key _ fun e => ?_
      rw [h2 e] at hok
      cases hok
    | radiation =>
      intro name hn
      obtain rfl : name = "glob" := by simpa [neededColumns, Call.part] using hn
      refine key _ fun e => ?_
      rw [h3 e] at hok
      cases hok

/-- C150 at work: a failing call for two seasons on an object with yearly statistics leaves two lists of months beside one statistics object -/
example (one : CascOptions ℝ) : let s : StatsObj := { obj := { precip := { months := some [wholeYear], stats := some [one] } } }
    ∃ s', s.call (.precipitation (some [[1, 2, 3], [4, 5]]) true 50) = (s', some .attributeError) ∧ s'.obj.precip.months = some [[1, 2, 3], [4, 5]] ∧ s'.obj.precip.stats = some [one] := by
  intro s
  have h := (C150_no_data s rfl).2.2.2.2 (some [[1, 2, 3], [4, 5]]) true 50 [1, 2, 3] [[4, 5]] rfl
  exact ⟨_, h, rfl, rfl⟩

end StatsObj

/-- **C13** (on a station).  `Station.interpolate` works on the daily data of the station with the limit it is given: without daily data it raises AttributeError; if it returns for `n` consecutive days
without infinite values, the result has the complete hourly index, and every missing hour is filled exactly if an observation is at most `limit` hours away, with the values described by `Filled`. -/
theorem C13_station (api : PandasApi) (w : World) (i : Nat) (chs : List (String × Int)) (limit : Nat) (hl : 0 < limit) :
    ((w.stations i).daily = none → w.interpolate api i chs limit = .error .attributeError) ∧
    ∀ out, w.interpolate api i chs limit = .ok out → ∃ f, (w.stations i).daily = some f ∧ ∀ d0 n, 0 < n → (f.index = (List.range n).map fun i : Nat => at00 (d0 + i)) →
      (∀ c s, f.col? c = some s → ∀ r ∈ s, r.2.NanOrFin) →
      ∃ prepared g, prepareInterpolationData api f chs = .ok (hourlyS d0 n prepared) ∧ out = hourlyS d0 n g ∧
        Filled (some limit) .both none (fun k : Nat => (k : ℝ)) (Series.values (hourlyS d0 n prepared)) (Series.values out) := by
  constructor
  · intro h
    unfold World.interpolate
    rw [h]
  · intro out h
    unfold World.interpolate at h
    cases hd : (w.stations i).daily with
    | none => rw [hd] at h; cases h
    | some f =>
      rw [hd] at h
      dsimp only at h
      refine ⟨f, rfl, fun d0 n hn hidx hfin => ?_⟩
      rw [← (C114_default api f d0 n hn hidx chs hfin).2.1 limit hl] at h
      obtain ⟨dir, ar, lim, pf, g, h1, h2, h3, h4, h5, -, h7⟩ := C114_station api f d0 n hn hidx chs hfin _ _ _ _ out h
      have e1 : LimitDirection.parse "both" = .ok .both := by decide +kernel
      rw [e1] at h1
      cases h1
      cases h2
      unfold validateLimit at h3
      dsimp only at h3
      rw [if_neg (by omega), Int.toNat_natCast] at h3
      cases h3
      exact ⟨pf, g, h4, h5, h7⟩

/-- C13 on a station: a call that returns -/
example (w : World) (i : Nat) (h : (w.stations i).daily = some ⟨[at00 0, at00 1], [("t7", [.fin 1, .nan])]⟩) : ∃ out, w.interpolate .legacy i [("t7", 7)] 5 = .ok out := by
  unfold World.interpolate
  rw [h]
  exact ⟨_, rfl⟩

end Melodist
