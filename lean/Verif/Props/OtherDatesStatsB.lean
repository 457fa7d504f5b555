import Verif.Props.OtherDatesStats
import Verif.Model.StationStatistics

/-!
# C127, continued: cascade statistics and the methods of `StationStatistics`
-/
set_option linter.unusedSectionVars false

namespace Melodist
open Spec
variable {K : Type}

section
variable [Field K] [LinearOrder K] [FloorRing K]

theorem moved_pairSums (x : Series (XF K)) (k : Int) : pairSums (x.shiftDays k) = (pairSums x).shiftDays k := by
  induction x using pairSums.induct with
  | case1 a b rest ih =>
    unfold Series.shiftDays at *
    simp only [List.map_cons, pairSums, ih]
  | case2 t h =>
    rcases t with _ | ⟨a, _ | ⟨b, t⟩⟩
    · rfl
    · rfl
    · exact absurd rfl (h a b t)

theorem moved_aggregate (x : Series (XF K)) (p : K) (k : Int) :
    aggregatePrecipitation (x.shiftDays k) p = (aggregatePrecipitation x p).map fun r => (r.1, r.2.shiftDays k) := by
  unfold aggregatePrecipitation
  have hany : ((x.shiftDays k).any fun r => ! decide r.2.NanOrFin) = x.any fun r => ! decide r.2.NanOrFin := by
    unfold Series.shiftDays
    rw [List.any_map]
    rfl
  rw [hany, moved_pairSums]
  simp only [moved_values]
  by_cases h : (x.any fun r => ! decide r.2.NanOrFin) = true
  · rw [if_pos h, if_pos h]; rfl
  · rw [if_neg h, if_neg h]
    simp only [bind, Except.bind]
    cases npPercentile (wetValues (Series.values (pairSums x))) p with
    | error e => rfl
    | ok m => cases aggBoxTypes none (Series.values (pairSums x)) <;> rfl

theorem moved_levelStatsLoop (p : K) (l : Nat) (x : Series (XF K)) (acc : CascStats K) (n : Nat) (k : Int) :
    levelStatsLoop p l (x.shiftDays k) acc n = levelStatsLoop p l x acc n := by
  induction l generalizing x acc n with
  | zero => rfl
  | succ l ih =>
    simp only [levelStatsLoop]
    rw [moved_aggregate]
    simp only [bind, Except.bind]
    cases aggregatePrecipitation x p with
    | error e => rfl
    | ok r =>
      simp only [Except.map, length_moved, ih]

theorem moved_seasonStats (x : Series (XF K)) (l : Nat) (avg : Bool) (p : K) (k : Int) :
    seasonStats (x.shiftDays k) l avg p = seasonStats x l avg p := by
  unfold seasonStats
  rw [moved_levelStatsLoop]

end

theorem moved_sort {V : Type} (l : Series V) (k : Int) :
    (l.shiftDays k).insertionSort (fun a b => a.1 ≤ b.1) = Series.shiftDays (l.insertionSort fun a b => a.1 ≤ b.1) k := by
  unfold Series.shiftDays
  symm
  apply List.map_insertionSort
  intro a _ b _
  simp

theorem moved_monthRows {V : Type} (s : Series V) (m k : Int) (h : ∀ r ∈ s, monthOf (r.1 + k * DAY) = monthOf r.1) :
    monthRows (s.shiftDays k) m = (monthRows s m).shiftDays k :=
  moved_filter s k (p := fun t => monthOf t == m) (q := fun t => monthOf t == m) fun r hr => by rw [h r hr]

theorem moved_seasonalSubset {V : Type} (s : Series V) (ms : List Int) (k : Int) (h : ∀ r ∈ s, monthOf (r.1 + k * DAY) = monthOf r.1) :
    seasonalSubset (s.shiftDays k) ms = (seasonalSubset s ms).map (Series.shiftDays · k) := by
  unfold seasonalSubset
  cases ms with
  | nil => rfl
  | cons m ms =>
    simp only [Except.map]
    congr 1
    have h2 : (m :: ms).flatMap (monthRows (s.shiftDays k)) = Series.shiftDays ((m :: ms).flatMap (monthRows s)) k := by
      conv_rhs => unfold Series.shiftDays
      rw [List.map_flatMap]
      congr 1
      funext j
      exact moved_monthRows s j k h
    rw [h2]
    exact moved_sort _ k

section
variable [Field K] [LinearOrder K] [FloorRing K]

theorem moved_fillna0 (s : Series (XF K)) (k : Int) : fillna0 (s.shiftDays k) = (fillna0 s).shiftDays k := by
  unfold fillna0 Series.shiftDays
  rw [List.map_map, List.map_map]
  rfl

theorem moved_buildLoop (l : Nat) (avg : Bool) (p : K) (x : Series (XF K)) (seasons : List (List Int)) (k : Int)
    (h : ∀ r ∈ x, monthOf (r.1 + k * DAY) = monthOf r.1) :
    buildLoop l avg p (x.shiftDays k) seasons = ((buildLoop l avg p x seasons).1.shiftDays k, (buildLoop l avg p x seasons).2) := by
  induction seasons generalizing x with
  | nil => rfl
  | cons ms seasons ih =>
    simp only [buildLoop]
    rw [moved_seasonalSubset x ms k h]
    cases seasonalSubset x ms with
    | error e => rfl
    | ok vdn =>
      simp only [Except.map]
      rw [moved_seasonStats, moved_fillna0]
      cases seasonStats vdn l avg p with
      | error e => rfl
      | ok st =>
        dsimp only
        rw [ih (fillna0 x) (by
          intro r hr
          obtain ⟨q, hq, rfl⟩ := List.mem_map.1 hr
          exact h q hq)]

/-- **C127 (cascade).** The cascade statistics of all seasons are the same, if every day keeps its month; the column left (missing values filled) is moved. -/
theorem C127_cascade (obs : Series (XF K)) (hourly : Bool) (level : Nat) (months : Option (List (List Int))) (avgStats : Bool) (percentile : K)
    (a b k : Int) (hw : WithinDays obs.index a b) (hm : SameMonths a b k) :
    buildCasc (obs.shiftDays k) hourly level months avgStats percentile =
      ((buildCasc obs hourly level months avgStats percentile).1.shiftDays k, (buildCasc obs hourly level months avgStats percentile).2) :=
  moved_buildLoop _ _ _ _ _ k fun r hr => month_moved hm (hw r.1 (List.mem_map_of_mem hr)).1 (hw r.1 (List.mem_map_of_mem hr)).2

end

/-! ## the methods of the object -/

/-- the object with the same hourly observations `k` days later -/
noncomputable def StatsObj.moved (s : StatsObj) (k : Int) : StatsObj := { s with data := s.data.map (Frame.moved · k) }

/-- what a call leaves, for observations `k` days later: the same statistics and the same exception -/
noncomputable def StatsObj.outMoved (r : StatsOut) (k : Int) : StatsOut := (r.1.moved k, r.2)

namespace StatsObj

theorem col_within {f : Frame ℝ} (hwf : f.WF) {a b : Int} (hw : WithinDays f.index a b) {n : String} {s : Series (XF ℝ)} (h : f.col? n = some s) :
    WithinDays s.index a b := by
  unfold Frame.col? at h
  obtain ⟨c, hc, rfl⟩ := Option.map_eq_some_iff.1 h
  rw [show Series.index (f.index.zip c.2) = f.index from List.map_fst_zip (hwf c (List.mem_of_find?_eq_some hc)).symm.le]
  exact hw

theorem attr_col {f : Frame ℝ} {n : String} {s : Series (XF ℝ)} (h : f.attr n = .ok s) : f.col? n = some s := by
  unfold Frame.attr at h
  cases hc : f.col? n with
  | none => rw [hc] at h; cases h
  | some q => rw [hc] at h; injection h with h; rw [h]

/-- **C127 (calc_wind_stats).** For the object with moved observations: the same parameters, the same exception. -/
theorem C127_calc_wind (optimise : List (ℝ × Int × ℝ) → Py (ℝ × ℝ × ℝ)) (s : StatsObj) (k : Int) :
    calcWind optimise (s.moved k) = outMoved (calcWind optimise s) k := by
  obtain ⟨obj, data⟩ := s
  cases data with
  | none => rfl
  | some f =>
    unfold calcWind
    simp only [StatsObj.moved, Option.map_some, moved_attr]
    cases f.attr "wind" with
    | error e => rfl
    | ok w =>
      show (match fitCosineFunction optimise (w.shiftDays k) with | .error e => _ | .ok (a, b, t) => _) = _
      rw [C127_wind]
      show _ = outMoved (match fitCosineFunction optimise w with | .error e => _ | .ok (a, b, t) => _) k
      cases fitCosineFunction optimise w <;> rfl

/-- **C127 (calc_humidity_stats).** -/
theorem C127_calc_humidity (s : StatsObj) (a b k : Int) (hs : ∀ f, s.data = some f → f.WF ∧ WithinDays f.index a b) (hm : SameMonths a b k) :
    calcHumidity (s.moved k) = outMoved (calcHumidity s) k := by
  obtain ⟨obj, data⟩ := s
  cases data with
  | none => rfl
  | some f =>
    obtain ⟨hwf, hw⟩ := hs f rfl
    unfold calcHumidity
    simp only [StatsObj.moved, Option.map_some, C127_dewpoint, C127_month_hour_precip f hwf a b k hw hm]
    rcases dewpointRegression f with e | ⟨x, y⟩
    · rfl
    · cases x <;> cases y <;> try rfl
      cases monthHourPrecipMean f <;> rfl

/-- **C127 (calc_temperature_stats).** -/
theorem C127_calc_temperature (s : StatsObj) (a b k : Int) (hs : ∀ f, s.data = some f → f.WF ∧ WithinDays f.index a b) (hm : SameMonths a b k)
    (hd : SameDayOfYear a b k) : calcTemperature (s.moved k) = outMoved (calcTemperature s) k := by
  obtain ⟨obj, data⟩ := s
  cases data with
  | none => rfl
  | some f =>
    obtain ⟨hwf, hw⟩ := hs f rfl
    unfold calcTemperature
    simp only [StatsObj.moved, Option.map_some, moved_attr]
    cases ht : f.attr "temp" with
    | error e => rfl
    | ok temp =>
      have hw' := col_within hwf hw (attr_col ht)
      simp only [Except.map, C127_shift temp _ _ _ a b k hw' hm hd, C127_mean_course temp true a b k hw' hm]
      cases obj.lon <;> cases obj.lat <;> cases obj.tz <;> rfl

/-- **C127 (calc_precipitation_stats).** -/
theorem C127_calc_precipitation (s : StatsObj) (months : Option (List (List Int))) (avgStats : Bool) (percentile : ℝ) (a b k : Int)
    (hs : ∀ f, s.data = some f → f.WF ∧ WithinDays f.index a b) (hm : SameMonths a b k) :
    calcPrecipitation (s.moved k) months avgStats percentile = outMoved (calcPrecipitation s months avgStats percentile) k := by
  obtain ⟨obj, data⟩ := s
  cases data with
  | none =>
    unfold calcPrecipitation
    simp only [StatsObj.moved, Option.map_none]
    cases firstSeasonError (months.getD [wholeYear]) .attributeError <;> rfl
  | some f =>
    obtain ⟨hwf, hw⟩ := hs f rfl
    unfold calcPrecipitation
    simp only [StatsObj.moved, Option.map_some, moved_col?]
    cases hp : f.col? "precip" with
    | none =>
      simp only [Option.map_none]
      cases firstSeasonError (months.getD [wholeYear]) .keyError <;> rfl
    | some p =>
      simp only [Option.map_some]
      rw [C127_cascade p true 9 _ avgStats percentile a b k (col_within hwf hw hp) hm]
      simp only [moved_values]
      cases (buildCasc p true 9 (some (months.getD [wholeYear])) avgStats percentile).2 <;> rfl

/-! ## radiation -/

/-- the rows with the dates `k` days later -/
def rowsLater (k : Int) (l : List FitRow) : List FitRow := l.map fun r => (r.1 + k * DAY, r.2)

theorem moved_fitFrame (a b c d : Series (XF ℝ)) (k : Int) :
    fitFrame (a.shiftDays k) (b.shiftDays k) (c.shiftDays k) (d.shiftDays k) = rowsLater k (fitFrame a b c d) := by
  unfold fitFrame rowsLater
  rw [show a.shiftDays k = a.map fun r => (r.1 + k * DAY, r.2) from rfl, List.filterMap_map, List.map_filterMap]
  apply List.filterMap_congr
  intro r _
  simp only [Function.comp_def, moved_at?]
  cases b.at? r.1 <;> cases c.at? r.1 <;> cases d.at? r.1 <;> try rfl
  dsimp only
  split <;> rfl

theorem moved_extractMonths {V : Type} (s : Series V) (ms : List Int) (k : Int) (h : ∀ r ∈ s, monthOf (r.1 + k * DAY) = monthOf r.1) :
    extractMonths (s.shiftDays k) ms = (extractMonths s ms).shiftDays k :=
  moved_filter s k (p := fun t => ms.contains (monthOf t)) (q := fun t => ms.contains (monthOf t)) fun r hr => by rw [h r hr]

theorem fitLoop_congr {fit : List FitRow → Py (XF ℝ × XF ℝ)} {rows rows' : List Int → List FitRow} (ranges : List (List Int))
    (tab : List (Int × XF ℝ) × List (Int × XF ℝ)) (h : ∀ ms, fit (rows ms) = fit (rows' ms)) : fitLoop fit rows ranges tab = fitLoop fit rows' ranges tab := by
  induction ranges generalizing tab with
  | nil => rfl
  | cons ms rest ih =>
    simp only [fitLoop, h, ih]

theorem rowsLater_values (k : Int) (l : List FitRow) : (rowsLater k l).map Prod.snd = l.map Prod.snd := by
  unfold rowsLater
  rw [List.map_map]
  rfl

theorem within_resampleD {V W : Type} {agg : List V → W} {s : Series V} {a b : Int} (hw : WithinDays s.index a b) : WithinDays (s.resampleD agg).index a b := by
  intro t ht
  obtain ⟨r, hr, rfl⟩ := List.mem_map.1 ht
  obtain ⟨d, hd, rfl⟩ := List.mem_map.1 hr
  have hdd : dayOf (midnight d) = d := dayOf_at00 d
  show a ≤ dayOf (midnight d) ∧ dayOf (midnight d) ≤ b
  rw [hdd]
  unfold Series.daySpan at hd
  split at hd
  · next u v hu hv =>
    obtain ⟨ta, hta, ea⟩ := List.mem_map.1 (List.min?_mem hu)
    obtain ⟨tb, htb, eb⟩ := List.mem_map.1 (List.max?_mem hv)
    have h1 := hw ta hta
    have h2 := hw tb htb
    obtain ⟨i, hi, rfl⟩ := List.mem_map.1 hd
    have hi := List.mem_range.1 hi
    omega
  · cases hd

theorem fitFrame_mem {a b c d : Series (XF ℝ)} {r : FitRow} (h : r ∈ fitFrame a b c d) : r.1 ∈ a.index := by
  obtain ⟨q, hq, e⟩ := List.mem_filterMap.1 h
  have : r.1 = q.1 := by
    cases h1 : b.at? q.1 <;> cases h2 : c.at? q.1 <;> cases h3 : d.at? q.1 <;> simp only [h1, h2, h3] at e <;> try cases e
    split at e
    · cases e
    · injection e with e; rw [← e]
  rw [this]
  exact List.mem_map_of_mem hq

theorem moved_fitRadiation (ang bc : List (XF ℝ × XF ℝ × XF ℝ × XF ℝ) → Py (XF ℝ × XF ℝ)) (s : StatsObj) (f : Frame ℝ) (dl : Option (Series (XF ℝ)))
    (how : String) (pot obs : Series (XF ℝ)) (a b k : Int) (hwf : f.WF) (hw : WithinDays f.index a b) (hdl : ∀ l, dl = some l → WithinDays l.index a b)
    (hp : WithinDays pot.index a b) (ho : WithinDays obs.index a b) (hm : SameMonths a b k) :
    fitRadiation (fun r => ang (r.map Prod.snd)) (fun r => bc (r.map Prod.snd)) (s.moved k) (f.moved k) (dl.map (Series.shiftDays · k)) how
        (pot.shiftDays k) (obs.shiftDays k) =
      outMoved (fitRadiation (fun r => ang (r.map Prod.snd)) (fun r => bc (r.map Prod.snd)) s f dl how pot obs) k := by
  have hrow : ∀ {x : Series (XF ℝ)}, WithinDays x.index a b → ∀ r ∈ x, monthOf (r.1 + k * DAY) = monthOf r.1 := fun h => rows_month h hm
  have second : ∀ tmin tmax : Series (XF ℝ), f.col? "tmin" = some tmin → ∀ (left : List (List Int)) (tab : List (Int × XF ℝ) × List (Int × XF ℝ)),
      fitLoop (fun r => bc (r.map Prod.snd)) (fun ms => (rowsLater k (fitFrame tmin tmax pot obs)).filter fun r => ms.contains (monthOf r.1)) left tab =
      fitLoop (fun r => bc (r.map Prod.snd)) (fun ms => (fitFrame tmin tmax pot obs).filter fun r => ms.contains (monthOf r.1)) left tab := by
    intro tmin tmax h1 left tab
    apply fitLoop_congr
    intro ms
    show bc _ = bc _
    congr 1
    rw [← rowsLater_values k ((fitFrame tmin tmax pot obs).filter fun r => ms.contains (monthOf r.1))]
    congr 1
    unfold rowsLater
    rw [List.filter_map]
    congr 1
    apply List.filter_congr
    intro r hr
    simp only [Function.comp_def]
    have hmem := col_within hwf hw h1 r.1 (fitFrame_mem hr)
    rw [month_moved hm hmem.1 hmem.2]
  unfold fitRadiation
  obtain ⟨ranges, once⟩ := monthRanges how
  simp only [moved_col?, StatsObj.moved]
  cases h1 : f.col? "ssd" with
  | none =>
    simp only [Option.map_none]
    cases h2 : f.col? "tmin" with
    | none => rfl
    | some tmin =>
      cases h3 : f.col? "tmax" with
      | none => rfl
      | some tmax =>
        simp only [Option.map_some, moved_fitFrame, second tmin tmax h2]
        rfl
  | some ssd =>
    cases dl with
    | none =>
      simp only [Option.map_none, Option.map_some]
      cases h2 : f.col? "tmin" with
      | none => rfl
      | some tmin =>
        cases h3 : f.col? "tmax" with
        | none => rfl
        | some tmax =>
          simp only [Option.map_some, moved_fitFrame, second tmin tmax h2]
          rfl
    | some dl =>
      simp only [Option.map_some]
      have := fitLoop_congr (fit := fun r => ang (r.map Prod.snd))
        (rows := fun ms => fitFrame (extractMonths (ssd.shiftDays k) ms) (extractMonths (dl.shiftDays k) ms) (extractMonths (pot.shiftDays k) ms) (extractMonths (obs.shiftDays k) ms))
        (rows' := fun ms => fitFrame (extractMonths ssd ms) (extractMonths dl ms) (extractMonths pot ms) (extractMonths obs ms)) ranges (s.obj.glob.angA, s.obj.glob.angB) (by
          intro ms
          show ang _ = ang _
          congr 1
          rw [moved_extractMonths _ _ _ (hrow (col_within hwf hw h1)), moved_extractMonths _ _ _ (hrow (hdl dl rfl)), moved_extractMonths _ _ _ (hrow hp),
            moved_extractMonths _ _ _ (hrow ho), moved_fitFrame, rowsLater_values])
      rw [this]
      rcases fitLoop (fun r => ang (r.map Prod.snd)) (fun ms => fitFrame (extractMonths ssd ms) (extractMonths dl ms) (extractMonths pot ms) (extractMonths obs ms)) ranges
        (s.obj.glob.angA, s.obj.glob.angB) with ⟨tab, _ | e⟩
      · dsimp only
        cases h2 : f.col? "tmin" with
        | none => rfl
        | some tmin =>
          cases h3 : f.col? "tmax" with
          | none => rfl
          | some tmax =>
            simp only [Option.map_some, moved_fitFrame, second tmin tmax h2]
            rfl
      · rfl

/-- **C127 (calc_radiation_stats).** Hourly and daily data and the day lengths are moved; `ang` and `bc` are scipy's optimisers, applied to the values. -/
theorem C127_calc_radiation (api : PandasApi) (ang bc : List (XF ℝ × XF ℝ × XF ℝ × XF ℝ) → Py (XF ℝ × XF ℝ)) (s : StatsObj) (daily : Option (Frame ℝ))
    (dayLength : Option (Series (XF ℝ))) (how : String) (a b k : Int) (hs : ∀ f, s.data = some f → f.WF ∧ WithinDays f.index a b)
    (hf : ∀ f, daily = some f → f.WF ∧ WithinDays f.index a b) (hdl : ∀ l, dayLength = some l → WithinDays l.index a b) (hm : SameMonths a b k)
    (hd : SameDayOfYear a b k) :
    calcRadiation api (fun r => ang (r.map Prod.snd)) (fun r => bc (r.map Prod.snd)) (s.moved k) (daily.map (Frame.moved · k)) (dayLength.map (Series.shiftDays · k)) how =
      outMoved (calcRadiation api (fun r => ang (r.map Prod.snd)) (fun r => bc (r.map Prod.snd)) s daily dayLength how) k := by
  obtain ⟨obj, data⟩ := s
  unfold calcRadiation
  by_cases hhow : ¬ (how = "all" ∨ how = "seasonal" ∨ how = "monthly")
  · rw [if_pos hhow, if_pos hhow]; rfl
  rw [if_neg hhow, if_neg hhow]
  cases data with
  | none => rfl
  | some data =>
    obtain ⟨hwf, hw⟩ := hs data rfl
    simp only [StatsObj.moved, Option.map_some, moved_attr]
    cases hg : data.attr "glob" with
    | error e => rfl
    | ok glob =>
      have hwg := col_within hwf hw (attr_col hg)
      simp only [Except.map, C127_mean_course glob false a b k hwg hm]
      cases daily with
      | none => rfl
      | some f =>
        obtain ⟨hff, hfw⟩ := hf f rfl
        simp only [Option.map_some]
        rw [show (f.moved k).index = f.index.map (· + k * DAY) from rfl, moved_hourlyIndex]
        cases hi : hourlyIndex api f.index with
        | error e => rfl
        | ok hours =>
          simp only [Except.map]
          have hwh := within_hourlyIndex hfw hi
          cases obj.lon with
          | none => rfl
          | some lon =>
            cases obj.lat with
            | none => rfl
            | some lat =>
              cases obj.tz with
              | none => rfl
              | some tz =>
                dsimp only
                rw [C124_potential_radiation hours lon lat tz 0 0 0 a b k hwh hd, moved_resampleD, moved_resampleD]
                have hpot : WithinDays (Series.index (potentialRadiation hours lon lat tz)) a b := by
                  rw [show Series.index (potentialRadiation hours lon lat tz) = hours by
                    unfold potentialRadiation potentialRadiationSplit Series.index
                    rw [List.map_map, List.map_map]
                    exact List.map_id _]
                  exact hwh
                exact moved_fitRadiation ang bc ⟨_, some data⟩ f dayLength how _ _ a b k hff hfw hdl (within_resampleD hpot) (within_resampleD hwg) hm

end StatsObj

/-! ## examples -/

/-- two days of hourly observations, with a gap -/
def exHourly2 : Series (XF ℚ) := hourlyS 0 2 fun i h => if i = 1 ∧ h = 5 then .nan else .fin ((h : ℚ) * (1 - (i : ℚ) / 2))

theorem exHourly2_within : WithinDays exHourly2.index 0 1 := by
  intro t ht
  obtain ⟨r, hr, rfl⟩ := List.mem_map.1 ht
  unfold exHourly2 hourlyS at hr
  obtain ⟨i, hi, rfl⟩ := List.mem_map.1 hr
  have hi := List.mem_range.1 hi
  show 0 ≤ dayOf (atHour (0 + (i / 24 : Nat)) (i % 24)) ∧ dayOf (atHour (0 + (i / 24 : Nat)) (i % 24)) ≤ 1
  rw [dayOf_atHour _ (Nat.mod_lt _ (by decide))]
  omega

/-- the mean course of the first two days of 1970 and of 1971; moved by 31 days it is the course of February instead -/
example : meanDailyCourseByMonth (exHourly2.shiftDays 365) false = meanDailyCourseByMonth exHourly2 false ∧
    (meanDailyCourseByMonth exHourly2 false).val 1 4 = .fin 3 ∧ (meanDailyCourseByMonth exHourly2 false).val 1 5 = .fin 5 ∧
    (meanDailyCourseByMonth (exHourly2.shiftDays 31) false).val 1 4 ≠ .fin 3 :=
  ⟨C127_mean_course exHourly2 false 0 1 365 exHourly2_within exYear.1, by decide +kernel, by decide +kernel, by decide +kernel⟩

/-- the cascade statistics of these two days: they exist, and are the same a year later -/
example : (buildCasc (exHourly2.shiftDays 365) false 3 none false 50).2 = (buildCasc exHourly2 false 3 none false 50).2 ∧
    okAnd (buildCasc exHourly2 false 3 none false 50).2 (fun l => l.length == 1) = true := by
  refine ⟨?_, by decide +kernel⟩
  rw [C127_cascade exHourly2 false 3 none false 50 0 1 365 exHourly2_within exYear.1]

end Melodist
