import Verif.Props.StatisticsRepeat
import Verif.Props.TemperatureShift
import Verif.Props.StationEndToEnd
import Verif.Props.StationSeasons
import Verif.Props.HumidityStats

/-!
# C88: statistics fitted to observations, then used by a station
-/

set_option linter.unusedSectionVars false

namespace Melodist
open Spec

namespace World

variable {api : PandasApi} {w : World} {i : Nat} {f : Frame ℝ} {k : Nat} {d0 : Int} {n : Nat} {s s' : StatsObj}

/-- C88 (wind).  `calc_wind_stats` on complete days of observations (not all calm) with an optimiser that finds a least-squares solution, then
`disaggregate_wind('cosine')` on a station with these statistics: the daily mean of the result is the daily mean wind speed, on every day that has one. -/
theorem C88_wind (optimise : List (ℝ × Int × ℝ) → Py (ℝ × ℝ × ℝ)) (hopt : ∀ rows p, optimise rows = .ok p → IsLeastSquares rows p)
    {obs : Frame ℝ} (hobs : s.data = some obs) {d1 : Int} {m : Nat} (hm : 0 < m) {g : Nat → Nat → ℝ}
    (hcol : obs.col? "wind" = some (hourlyS d1 m fun i h => .fin (g i h))) (hg : ∃ i < m, (day24 (g i)).sum ≠ 0)
    (hfit : s.calcWind optimise = (s', none))
    (R : Ready w i f k d0 n) (hn : 0 < n) (hst : w.stats (w.stations i).stat = s'.obj) {v : Nat → XF ℝ} (hv : f.col? "wind" = some (dailyS d0 n v))
    (draw : Nat → ℝ) :
    (w.wind api i draw "cosine").2 = none ∧ ∃ out, ((w.wind api i draw "cosine").1.frames k).col? "wind" = some out ∧
      ∀ j < n, (∀ x, v j = .fin x → MeanIs (dayCells out (d0 + j)) x) ∧ (v j = .nan → AllNan (dayCells out (d0 + j))) := by
  unfold StatsObj.calcWind at hfit
  rw [hobs] at hfit
  dsimp only at hfit
  rw [attr_ok hcol, py_ok_bind] at hfit
  cases hf : fitCosineFunction optimise (hourlyS d1 m fun i h => .fin (g i h)) with
  | error e => rw [hf] at hfit; cases congrArg Prod.snd hfit
  | ok r =>
    obtain ⟨a, b, t⟩ := r
    rw [hf] at hfit
    have hs' := congrArg Prod.fst hfit
    dsimp only at hs'
    have hb := (C78_fit_preserves_mean api optimise hopt d1 m hm g hg a b t hf).1
    have e : (w.stats (w.stations i).stat).wind = { a := some a, b := some b, tShift := some t } := by rw [hst, ← hs']
    obtain ⟨h1, out, h2, h3⟩ := C85_wind_cosine (api := api) R hn hv draw (a := a) (b := b) (t := t) (by rw [e]) (by rw [e]) (by rw [e])
    refine ⟨h1, out, h2, fun j hj => ⟨fun x hx => ?_, (h3 j hj).2⟩⟩
    have := (h3 j hj).1 x hx
    rwa [hb, one_mul] at this

/-- C88 (temperature).  `calc_temperature_stats` on hourly observations that have rows for every hour of the day in every month of the station's days, then
`disaggregate_temperature('mean_course_min_max')`: on every day with tmin ≤ tmax in whose month the 24 observed hourly means are not all equal, the
smallest and the largest of the 24 values are tmin and tmax. -/
theorem C88_temperature {obs : Frame ℝ} (hobs : s.data = some obs) {temp : Series (XF ℝ)} (hcol : obs.col? "temp" = some temp)
    (hnum : ∀ r ∈ temp, r.2.NanOrFin) (hfit : s.calcTemperature = (s', none))
    (R : Ready w i f k d0 n) (hn : 0 < n) (hst : w.stats (w.stations i).stat = s'.obj) {tmin tmax : Nat → XF ℝ}
    (h1 : f.col? "tmin" = some (dailyS d0 n tmin)) (h2 : f.col? "tmax" = some (dailyS d0 n tmax))
    (hcov : ∀ j : Nat, j < n → ∀ h : Nat, h < 24 → ∃ r ∈ temp, monthOf r.1 = monthOf (at00 (d0 + j)) ∧ r.1 % 86400000000 / 3600000000 = h)
    (mmt : String) (modNight : Bool) :
    (w.temperature api i "mean_course_min_max" mmt modNight).2 = none ∧
    ∃ out, ((w.temperature api i "mean_course_min_max" mmt modNight).1.frames k).col? "temp" = some out ∧
      ∀ j < n, ∀ a b : ℝ, tmin j = .fin a → tmax j = .fin b → a ≤ b → Variable24 temp (monthOf (at00 (d0 + j))) →
        MinIs (dayCells out (d0 + j)) a ∧ MaxIs (dayCells out (d0 + j)) b := by
  have hc : (w.stats (w.stations i).stat).temp.course = some (meanDailyCourseByMonth temp true) := by
    rw [hst]
    obtain ⟨⟨slon, slat, stz, sw, pr, hu, te, gl⟩, sd⟩ := s
    dsimp only at hobs
    subst hobs
    unfold StatsObj.calcTemperature at hfit
    dsimp only at hfit
    rw [attr_ok hcol] at hfit
    dsimp only at hfit
    cases slon <;> cases slat <;> cases stz <;> first
      | (cases congrArg Prod.snd hfit; done)
      | (have e := congrArg Prod.fst hfit; dsimp only at e; rw [← e])
  have hC := C14_mean_course temp hnum
  have e1 : (meanDailyCourseByMonth temp true).months = (meanDailyCourseByMonth temp).months := by simp [meanDailyCourseByMonth]
  have e2 : (meanDailyCourseByMonth temp true).hours = (meanDailyCourseByMonth temp).hours := by simp [meanDailyCourseByMonth]
  have hcv : Covers (meanDailyCourseByMonth temp true) d0 n := by
    constructor
    · intro i hin
      rw [e1, hC.2.1]
      obtain ⟨r, hr, h1, _⟩ := hcov i hin 0 (by decide)
      exact ⟨monthOf_range _, r, hr, h1⟩
    · intro h hh
      rw [e2, hC.1]
      obtain ⟨r, hr, _, h2⟩ := hcov 0 hn h hh
      exact ⟨r, hr, h2⟩
  obtain ⟨r1, out, r2, r3⟩ := C85_temperature_course (api := api) R hn h1 h2 hc hcv mmt modNight
  exact ⟨r1, out, r2, fun j hj a b ha hb hab hv => r3 j hj a b ha hb hab (fitted_normalized hnum hv)⟩

/-- C88 (humidity).  `calc_humidity_stats`, then `disaggregate_humidity('linear_dewpoint_variation')` on a station whose temperature results have a number
in every hour: whatever the least-squares line through the observed points (daily minimum temperature, daily mean dew point) is, the dew points used
are on this line — the dew point of hour h of a day is `D + h/24·(D' - D)` plus a diurnal term of period 24 h, mean 0 and amplitude 0.5 K, where D and D' are the
points of the line at tmin of the day and of the next one. -/
theorem C88_humidity {obs : Frame ℝ} (hobs : s.data = some obs) (hwf : obs.WF) {temp hum : Series (XF ℝ)} (c1 : obs.col? "temp" = some temp)
    (c2 : obs.col? "hum" = some hum) (hf1 : ∀ r ∈ temp, TempOk r.2) (hf2 : ∀ r ∈ hum, HumOk r.2) (days : List Int) (hnd : days.Nodup)
    (hdays : ∀ d, d ∈ days ↔ dewOn temp hum d ≠ []) (tmn tdew : Int → ℝ)
    (hmin : ∀ d ∈ days, tmn d ∈ numbers (dayCells temp d) ∧ ∀ y ∈ numbers (dayCells temp d), tmn d ≤ y)
    (hdew : ∀ d ∈ days, tdew d = (dewOn temp hum d).sum / (dewOn temp hum d).length) (hvar : ∃ d ∈ days, ∃ e ∈ days, tmn d ≠ tmn e)
    {a1 a0 : ℝ} (hls : ∀ p q, (days.map fun d => (a1 * tmn d + a0 - tdew d) ^ 2).sum ≤ (days.map fun d => (p * tmn d + q - tdew d) ^ 2).sum)
    (hfit : s.calcHumidity = (s', none))
    (R : Ready w i f k d0 n) (hn : 0 < n) (hst : w.stats (w.stations i).stat = s'.obj) {tmin : Nat → ℝ} {T : Nat → Nat → ℝ}
    (h1 : f.col? "tmin" = some (dailyS d0 n fun i => .fin (tmin i))) (h2 : (w.frames k).col? "temp" = some (hourlyS d0 n fun i h => .fin (T i h))) :
    (w.humidity api i "linear_dewpoint_variation" false).2 = none ∧
    ∃ out δ, ((w.humidity api i "linear_dewpoint_variation" false).1.frames k).col? "hum" = some out ∧
      (∀ h : Nat, δ h = 1 / 2 * Real.sin (((h : ℝ) + 1) * Real.pi / 12 - 3 * Real.pi / 4)) ∧ (∀ h, |δ h| ≤ 1 / 2) ∧ (day24 δ).sum = 0 ∧
      ∀ j < n, ∀ h : Nat, h < 24 → ∀ td D next, D = a0 + a1 * tmin j → next = (if j + 1 < n then a0 + a1 * tmin (j + 1) else D) →
        td = D + (h : ℝ) / 24 * (next - D) + δ h → 0.53 < td → 0.53 < T j h →
        (dayCells out (d0 + j))[(h : Nat)]? = some (.fin (relHum td (T j h))) := by
  obtain ⟨b1, b0, hr, hu⟩ := C79_dewpoint_regression obs hwf temp hum c1 c2 hf1 hf2 days hnd hdays tmn tdew hmin hdew hvar
  have hle := (hu a1 a0).1
  obtain ⟨rfl, rfl⟩ := (hu a1 a0).2 (le_antisymm (hls b1 b0) hle)
  have hh : ∃ table, (w.stats (w.stations i).stat).hum = { a0 := some a0, a1 := some a1, kr := some 12, table := some table } := by
    rw [hst]
    rw [StatsObj.calcHumidity_eff] at hfit
    have e1 := congrArg Prod.fst hfit
    have e2 := congrArg Prod.snd hfit
    dsimp only at e1 e2
    rw [← e1]
    dsimp only
    unfold StatsObj.humEff at e2 ⊢
    rw [hobs] at e2 ⊢
    dsimp only at e2 ⊢
    rw [hr] at e2 ⊢
    dsimp only at e2 ⊢
    cases ht : monthHourPrecipMean obs with
    | error e => rw [ht] at e2; cases e2
    | ok table => exact ⟨table, rfl⟩
  obtain ⟨table, hh⟩ := hh
  obtain ⟨out, δ, e1, e2, e3, e4, e5⟩ := C40_linear_dewpoint api f a0 a1 12 (.inr rfl) (some table) d0 n hn tmin T h1
  have hs := C84_humidity (api := api) R h2 "linear_dewpoint_variation" false (st := { a0 := some a0, a1 := some a1, kr := some 12, table := some table })
    hh.symm
  have hi : out.index = hoursOf d0 n := by
    have h' := e1
    unfold disaggregateHumidity at h'
    obtain ⟨q, hq, h'⟩ := py_bind_inv h'
    rw [raw_linear api f a0 a1 12 (.inr rfl) (some table) d0 n hn _ _ h1] at hq
    cases hq
    cases h'
    rw [← hoursOf_eq d0 n fun _ _ => ()]
    unfold Series.index hourlyS
    rw [List.map_map, List.map_map, List.map_map]
    rfl
  obtain ⟨r1, r2⟩ := hs.exact e1 hi
  exact ⟨r1, out, δ, r2, fun h => by rw [e2]; rfl, e3, e4, e5⟩

/-- the stored statistics of a season are probability distributions (up to nothing) -/
def Distributions : CascOptions ℝ → Prop
  | .one a => StatsWithin 0 a
  | .many l => ∀ a ∈ l, StatsWithin 0 a
  | .other => False

/-- what `build_casc` returns for hourly data can be used by the cascade as soon as the entries are distributions -/
theorem usable_of_seasonStats {vdn : Series (XF ℝ)} {avg : Bool} {p : ℝ} {r : CascStats ℝ ⊕ List (CascStats ℝ)} (h : seasonStats vdn 5 avg p = .ok r)
    (hd : Distributions (StatsObj.asOptions r)) : UsableOptions 5 (StatsObj.asOptions r) := by
  have huse : ∀ s : CascStats ℝ, StatsWithin 0 s → UsableWeights s := by
    intro s hs b t
    obtain ⟨-, w, h1, -, h3⟩ := hs b t
    have h4 : ∑ k, w k - 1 = 0 := abs_nonpos_iff.1 h3
    exact ⟨w, h1, by linarith⟩
  obtain ⟨l, hl, hagg, -, h1, h2⟩ := seasonStats_spec h
  cases avg with
  | false =>
    rw [h1 rfl] at hd ⊢
    refine ⟨hl, fun s hs => ⟨huse s (hd s hs), ?_⟩⟩
    obtain ⟨i, hi⟩ := List.getElem?_of_mem hs
    obtain ⟨v, hv⟩ := hagg i s hi
    obtain ⟨-, -, mv, ty, -, -, rfl⟩ := aggregate_inv hv
    simp [finishStats_fields]
  | true =>
    obtain ⟨a, rfl, -, ht, -⟩ := h2 rfl
    exact ⟨huse a hd, by rw [ht, List.length_map, hl]⟩

theorem buildLoop_usable {avg : Bool} {p : ℝ} : ∀ (seasons : List (List Int)) (obs : Series (XF ℝ)) {r : List (CascStats ℝ ⊕ List (CascStats ℝ))},
    (buildLoop 5 avg p obs seasons).2 = .ok r → r.length = seasons.length ∧ (∀ x ∈ r, ∃ vdn, seasonStats vdn 5 avg p = .ok x) ∧ ∀ ms ∈ seasons, ms ≠ []
  | [], obs, r, h => by
    cases h
    exact ⟨rfl, by simp, by simp⟩
  | ms :: rest, obs, r, h => by
    unfold buildLoop at h
    cases hs : seasonalSubset obs ms with
    | error e => rw [hs] at h; cases h
    | ok vdn =>
      rw [hs] at h
      dsimp only at h
      cases ht : seasonStats vdn 5 avg p with
      | error e => rw [ht] at h; cases h
      | ok st =>
        rw [ht] at h
        dsimp only at h
        cases hb : (buildLoop 5 avg p (fillna0 obs) rest).2 with
        | error e => rw [hb] at h; cases h
        | ok q =>
          rw [hb] at h
          cases h
          obtain ⟨h1, h2, h3⟩ := buildLoop_usable rest (fillna0 obs) hb
          refine ⟨by simp [h1], ?_, ?_⟩
          · intro x hx
            rcases List.mem_cons.1 hx with rfl | hx
            · exact ⟨vdn, ht⟩
            · exact h2 x hx
          · intro m hm
            rcases List.mem_cons.1 hm with rfl | hm
            · exact (seasonalSubset_ok hs).1
            · exact h3 m hm

/-- C88 (precipitation).  `calc_precipitation_stats` for seasons of different months (no argument: the whole year; averaged over the levels or not), with the result that all stored
statistics are probability distributions (no season had to fall back on the sample data), then `disaggregate_precipitation('cascade')` on current
pandas: if no season with at least two days has a gap in the station's days, the call succeeds, and on every day of a season with at least two days the
hourly values are non-negative and add up to the daily total. -/
theorem C88_precipitation (hapi : api.indexToDatetime = false) {obs : Frame ℝ} (hobs : s.data = some obs) {p0 : Series (XF ℝ)}
    (hcol : obs.col? "precip" = some p0) {given : Option (List (List Int))} {months : List (List Int)}
    (hgiven : given = some months ∨ given = none ∧ months = [[1, 2, 3, 4, 5, 6, 7, 8, 9, 10, 11, 12]])
    (hmd : ∀ ms ∈ months, ms.Nodup) {avg : Bool} {p : ℝ}
    (hfit : s.calcPrecipitation given avg p = (s', none)) (hdist : ∀ l, s'.obj.precip.stats = some l → ∀ o ∈ l, Distributions o)
    (R : Ready w i f k d0 n) (hst : w.stats (w.stations i).stat = s'.obj) {v : Nat → XF ℝ} (h1 : f.col? "precip" = some (dailyS d0 n v))
    (hv : ∀ j < n, v j = .nan ∨ ∃ x, 0 ≤ x ∧ v j = .fin x) (rnd : Nat → Nat → ℝ) (hr : ∀ k j, rnd k j ≤ 1) (zerodiv : String)
    (master : Option (Series (XF ℝ))) (hgap : ∀ ms ∈ months, TwoDays d0 n ms → Contiguous d0 n ms) :
    (w.precipitation api i rnd "cascade" zerodiv 0 master).2 = none ∧
    ∃ out, ((w.precipitation api i rnd "cascade" zerodiv 0 master).1.frames k).col? "precip" = some out ∧
      ∀ j < n, (∃ ms ∈ months, monthOf (at00 (d0 + j)) ∈ ms ∧ TwoDays d0 n ms) →
        (v j = .nan → AllNan (dayCells out (d0 + j))) ∧
        ∀ x, v j = .fin x → TotalIs (dayCells out (d0 + j)) x ∧ ∀ c ∈ dayCells out (d0 + j), ∃ y, 0 ≤ y ∧ c = .fin y := by
  have hs : ∃ r, (buildLoop 5 avg p p0 months).2 = .ok r ∧ s'.obj.precip.months = some months ∧
      s'.obj.precip.stats = some (r.map StatsObj.asOptions) := by
    obtain ⟨⟨slon, slat, stz, sw, pr, hu, te, gl⟩, sd⟩ := s
    dsimp only at hobs
    subst hobs
    unfold StatsObj.calcPrecipitation at hfit
    have hg : given.getD [StatsObj.wholeYear] = months := by
      rcases hgiven with h | ⟨h, h'⟩
      · rw [h]; rfl
      · rw [h, h']; rfl
    dsimp only at hfit
    rw [hg] at hfit
    rw [hcol] at hfit
    dsimp only at hfit
    have e : buildCasc p0 true 9 (some months) avg p = buildLoop 5 avg p p0 months := rfl
    rw [e] at hfit
    cases hb : (buildLoop 5 avg p p0 months).2 with
    | error e => rw [hb] at hfit; cases congrArg Prod.snd hfit
    | ok r =>
      rw [hb] at hfit
      have := congrArg Prod.fst hfit
      dsimp only at this
      rw [← this]
      exact ⟨r, rfl, rfl, rfl⟩
  obtain ⟨r, hb, hm, hstat⟩ := hs
  obtain ⟨hlen, huse, hne⟩ := buildLoop_usable months p0 hb
  have hseason : SeasonalStation w i d0 n v k (months.zip (r.map StatsObj.asOptions)) := by
    refine ⟨⟨f, R.daily, h1⟩, R.disagg, by rw [R.hours, hoursOf_eq], R.columns _ (by simp), months, r.map StatsObj.asOptions, ?_, ?_, rfl⟩
    · unfold statOf; rw [hst]; exact hm
    · unfold statOf; rw [hst]; exact hstat
  have hmem : ∀ q ∈ months.zip (r.map StatsObj.asOptions), q.1 ∈ months ∧ q.2 ∈ r.map StatsObj.asOptions := fun q hq =>
    ⟨(List.of_mem_zip hq).1, (List.of_mem_zip hq).2⟩
  have hok := (C67_gaps (zerodiv := zerodiv) (master := master) hapi hseason hv (fun q hq => by
    obtain ⟨m1, m2⟩ := hmem q hq
    refine ⟨hne _ m1, hmd _ m1, ?_⟩
    obtain ⟨x, hx, hxe⟩ := List.mem_map.1 m2
    obtain ⟨vdn, hvdn⟩ := huse x hx
    rw [← hxe]
    exact usable_of_seasonStats hvdn (hdist _ hstat _ (List.mem_map_of_mem hx))) hr).1 fun q hq => hgap _ (hmem q hq).1
  obtain ⟨-, out, o1, -, o3⟩ := C67_days hapi hseason (fun q hq => hmd _ (hmem q hq).1) hok
  refine ⟨hok, out, o1, fun j hj hcov => ?_⟩
  have hC : Covered d0 n (months.zip (r.map StatsObj.asOptions)) j := by
    obtain ⟨ms, hms, c1, c2⟩ := hcov
    obtain ⟨a, ha, rfl⟩ := List.getElem_of_mem hms
    refine ⟨(months[a], (r.map StatsObj.asOptions)[a]'(by rw [List.length_map, hlen]; exact ha)), ?_, ?_, ?_⟩
    · rw [← List.getElem_zip (h := by rw [List.length_zip, List.length_map, hlen, Nat.min_self]; exact ha)]
      exact List.getElem_mem _
    · exact c1
    · exact c2
  obtain ⟨q1, q2⟩ := (o3 j hj).1 hC
  refine ⟨q1, fun x hx => ?_⟩
  have := q2 x hx
  rcases hv j hj with e | ⟨y, hy, e⟩
  · rw [e] at hx; cases hx
  · rw [e] at hx
    cases hx
    rwa [max_eq_left hy] at this

/-- C88 (shift of the maximum).  `calc_temperature_stats` stores, for exactly the months between the first and the last observation, the mean over the days of
that month with observations of (hour of the first daily maximum - solar noon at the object's coordinates and time zone). -/
theorem C88_shift {obs : Frame ℝ} (hobs : s.data = some obs) {temp : Series (XF ℝ)} (hcol : obs.col? "temp" = some temp)
    (hnum : ∀ r ∈ temp, r.2.NanOrFin) (hfit : s.calcTemperature = (s', none)) :
    ∃ lon lat tz table, s.obj.lon = some lon ∧ s.obj.lat = some lat ∧ s.obj.tz = some tz ∧ s'.obj.temp.maxDelta = some table ∧
      (∀ m, (∃ x, (m, x) ∈ table) ↔ ∃ d, monthOf (at00 d) = m ∧ (∃ t ∈ temp.index, t / 86400000000 ≤ d) ∧ ∃ t ∈ temp.index, d ≤ t / 86400000000) ∧
      ∀ noon : Int → ℝ, (∀ d, (sunTimesDoy (doyOf (at00 d)) lon lat tz).sunnoon = .fin (noon d)) →
        ∀ m x, (m, x) ∈ table → ∀ (days : List Int) (first : Int → Int), days.Nodup →
          (∀ d, d ∈ days ↔ monthOf (at00 d) = m ∧ ∃ r ∈ temp, r.1 / 86400000000 = d ∧ r.2 ≠ .nan) →
          (∀ d ∈ days, FirstMaxAt temp d (first d)) →
          (days = [] → x = .nan) ∧ (days ≠ [] → x = .fin ((days.map fun d => (first d : ℝ) - noon d).sum / days.length)) := by
  obtain ⟨⟨slon, slat, stz, sw, pr, hu, te, gl⟩, sd⟩ := s
  dsimp only at hobs
  subst hobs
  unfold StatsObj.calcTemperature at hfit
  dsimp only at hfit
  rw [attr_ok hcol] at hfit
  dsimp only at hfit
  cases slon with
  | none => cases congrArg Prod.snd hfit
  | some lon =>
    cases slat with
    | none => cases congrArg Prod.snd hfit
    | some lat =>
      cases stz with
      | none => cases congrArg Prod.snd hfit
      | some tz =>
        have e := congrArg Prod.fst hfit
        dsimp only at e
        refine ⟨lon, lat, tz, getShiftByData temp lon lat tz, rfl, rfl, rfl, by rw [← e], ?_, ?_⟩
        · obtain ⟨noon, hnoon⟩ : ∃ noon : Int → ℝ, ∀ d, (sunTimesDoy (doyOf (at00 d)) lon lat tz).sunnoon = .fin (noon d) :=
            ⟨_, fun _ => rfl⟩
          intro m
          rw [← (C53_shift temp hnum lon lat tz noon hnoon).2.1 m]
          simp
        · intro noon hnoon
          exact (C53_shift temp hnum lon lat tz noon hnoon).2.2

/-- C88 (radiation).  `calc_radiation_stats` on hourly observations of radiation without negative values that have rows for every hour of the day, then
`disaggregate_radiation('mean_course')` on a station with coordinates: the call succeeds, and on every day with daily radiation g ≥ 0 in
whose month every hour of the day and at least one positive value were observed, the mean of the 24 values is in (g - 0.01, g]. -/
theorem C88_radiation {obs : Frame ℝ} (hobs : s.data = some obs) {glob : Series (XF ℝ)} (hcol : obs.col? "glob" = some glob)
    (hnum : ∀ r ∈ glob, r.2 = .nan ∨ ∃ x, 0 ≤ x ∧ r.2 = .fin x) {api' : PandasApi} {ang bc : List StatsObj.FitRow → Py (XF ℝ × XF ℝ)}
    {daily : Option (Frame ℝ)} {dl : Option (Series (XF ℝ))} {how : String} (hfit : s.calcRadiation api' ang bc daily dl how = (s', none))
    (R : Ready w i f k d0 n) (hn : 0 < n) (hst : w.stats (w.stations i).stat = s'.obj) {lon lat tz : ℝ}
    (h1 : (w.stations i).lon = some lon) (h2 : (w.stations i).lat = some lat) (h3 : (w.stations i).tz = some tz) {v : Nat → XF ℝ}
    (hg : f.col? "glob" = some (dailyS d0 n v))
    (hcov : ∀ j : Nat, j < n → ∀ h : Nat, h < 24 → ∃ r ∈ glob, monthOf r.1 = monthOf (at00 (d0 + j)) ∧ r.1 % 86400000000 / 3600000000 = h) :
    (w.radiation api i "mean_course" none).2 = none ∧ ∃ out, ((w.radiation api i "mean_course" none).1.frames k).col? "glob" = some out ∧
      ∀ j < n, ∀ g : ℝ, v j = .fin g → 0 ≤ g →
        (∀ h : Nat, h < 24 → ∃ r ∈ glob, monthOf r.1 = monthOf (at00 (d0 + j)) ∧ r.1 % 86400000000 / 3600000000 = h ∧ r.2 ≠ .nan) →
        (∃ r ∈ glob, monthOf r.1 = monthOf (at00 (d0 + j)) ∧ ∃ x, 0 < x ∧ r.2 = .fin x) →
        ∃ x, MeanIs (dayCells out (d0 + j)) x ∧ g - 0.01 < x ∧ x ≤ g := by
  have hc : (w.stats (w.stations i).stat).glob.course = some (meanDailyCourseByMonth glob) := by
    rw [hst]
    rw [StatsObj.calcRadiation_eff] at hfit
    have e1 := congrArg Prod.fst hfit
    have e2 := congrArg Prod.snd hfit
    dsimp only at e1 e2
    rw [← e1]
    dsimp only
    unfold StatsObj.radEff at e2 ⊢
    by_cases hh : how = "all" ∨ how = "seasonal" ∨ how = "monthly"
    · simp only [if_neg (not_not.2 hh)] at e2 ⊢
      rw [hobs] at e2 ⊢
      dsimp only at e2 ⊢
      rw [attr_ok hcol] at e2 ⊢
      dsimp only at e2 ⊢
      cases daily with
      | none => rfl
      | some df =>
        dsimp only at e2 ⊢
        cases hi : hourlyIndex api' df.index with
        | error e => rfl
        | ok hours =>
          dsimp only
          cases hlon : s.obj.lon with
          | none => rfl
          | some _ =>
            cases hlat : s.obj.lat with
            | none => rfl
            | some _ =>
              cases htz : s.obj.tz with
              | none => rfl
              | some _ => exact StatsObj.radFit_course _ _ _ _ _ _ _ _
    · simp only [if_pos hh] at e2
      cases e2
  have hno : ∀ r ∈ glob, r.2.NanOrFin := by
    intro r hr
    rcases hnum r hr with e | ⟨x, -, e⟩ <;> rw [e] <;> trivial
  have hC := C14_mean_course glob hno
  have hpos : ∀ m h, ∀ a ∈ numbers (obsOf glob m h), 0 ≤ a := by
    intro m h a ha
    obtain ⟨c, hc, e⟩ := List.mem_filterMap.1 ha
    obtain ⟨r, hr, rfl⟩ := List.mem_map.1 hc
    rcases hnum r (List.mem_filter.1 hr).1 with e' | ⟨x, hx, e'⟩ <;> rw [e'] at e <;> simp at e
    rwa [← e]
  have hmem : ∀ r ∈ glob, ∀ x, r.2 = .fin x → x ∈ numbers (obsOf glob (monthOf r.1) (r.1 % 86400000000 / 3600000000)) := by
    intro r hr x hx
    refine List.mem_filterMap.2 ⟨.fin x, ?_, rfl⟩
    refine List.mem_map.2 ⟨r, List.mem_filter.2 ⟨hr, ?_⟩, hx⟩
    simp
  -- the call
  have hcm : ∀ j : Nat, j < n → monthOf (at00 (d0 + j)) ∈ (meanDailyCourseByMonth glob).months := by
    intro j hj
    rw [hC.2.1]
    obtain ⟨r, hr, e, _⟩ := hcov j hj 0 (by decide)
    exact ⟨monthOf_range _, r, hr, e⟩
  have hch : ∀ h : Nat, h < 24 → (h : Int) ∈ (meanDailyCourseByMonth glob).hours := by
    intro h hh
    rw [hC.1]
    obtain ⟨r, hr, _, e⟩ := hcov 0 hn h hh
    exact ⟨r, hr, e⟩
  have hday : ∀ out : Series (XF ℝ), (∀ j < n, ∀ (q : Nat → ℝ) (g : ℝ),
        (∀ h < 24, (meanDailyCourseByMonth glob).val (monthOf (at00 (d0 + (j : Nat)))) (h : Nat) = .fin (q h)) → (∀ h < 24, 0 ≤ q h) →
        0 < (day24 q).sum → v j = .fin g → 0 ≤ g →
        (∃ x, MeanIs (dayCells out (d0 + j)) x ∧ g - 0.01 < x ∧ x ≤ g) ∧
        ((∀ h < 24, q h = 0 ∨ 0.01 ≤ q h / ((day24 q).sum / 24) * g) → MeanIs (dayCells out (d0 + j)) g)) →
      ∀ j < n, ∀ g : ℝ, v j = .fin g → 0 ≤ g →
        (∀ h : Nat, h < 24 → ∃ r ∈ glob, monthOf r.1 = monthOf (at00 (d0 + j)) ∧ r.1 % 86400000000 / 3600000000 = h ∧ r.2 ≠ .nan) →
        (∃ r ∈ glob, monthOf r.1 = monthOf (at00 (d0 + j)) ∧ ∃ x, 0 < x ∧ r.2 = .fin x) →
        ∃ x, MeanIs (dayCells out (d0 + j)) x ∧ g - 0.01 < x ∧ x ≤ g := by
    intro out hall j hj g hv hg0 hfull hsome
    have hex : ∀ h : Nat, ∃ x, h < 24 → (meanDailyCourseByMonth glob).val (monthOf (at00 (d0 + (j : Nat)))) h = .fin x ∧ 0 ≤ x ∧
        x * (numbers (obsOf glob (monthOf (at00 (d0 + j))) h)).length = (numbers (obsOf glob (monthOf (at00 (d0 + j))) h)).sum := by
      intro h
      by_cases hh : h < 24
      · obtain ⟨r, hr, e1, e2, e3⟩ := hfull h hh
        obtain ⟨y, hy⟩ : ∃ y, r.2 = .fin y := by
          rcases hnum r hr with e | ⟨y, -, e⟩
          · exact absurd e e3
          · exact ⟨y, e⟩
        have hm := hmem r hr y hy
        rw [e1, e2] at hm
        obtain ⟨x, hx, hs, ⟨a, ha, hle⟩, -⟩ := (hC.2.2 (monthOf (at00 (d0 + j))) h).2 (List.ne_nil_of_mem hm)
        exact ⟨x, fun _ => ⟨hx, le_trans (hpos _ _ a ha) hle, hs⟩⟩
      · exact ⟨0, fun h => absurd h hh⟩
    choose q hq using hex
    refine (hall j hj q g (fun h hh => (hq h hh).1) (fun h hh => (hq h hh).2.1) ?_ hv hg0).1
    obtain ⟨r, hr, e1, x, hx, e2⟩ := hsome
    have hm := hmem r hr x e2
    obtain ⟨k, hk⟩ : ∃ k : Nat, (k : Int) = r.1 % 86400000000 / 3600000000 := ⟨(r.1 % 86400000000 / 3600000000).toNat, by omega⟩
    have hk24 : k < 24 := by omega
    rw [e1, ← hk] at hm
    have hqk : 0 < q k := by
      have h3 := (hq k hk24).2.2
      have hs : 0 < (numbers (obsOf glob (monthOf (at00 (d0 + j))) k)).sum :=
        lt_of_lt_of_le hx (List.single_le_sum (fun a ha => hpos _ _ a ha) _ hm)
      rcases (hq k hk24).2.1.lt_or_eq with h | h
      · exact h
      · rw [← h, zero_mul] at h3
        rw [← h3] at hs
        exact absurd hs (lt_irrefl _)
    refine lt_of_lt_of_le hqk (List.single_le_sum ?_ _ ?_)
    · intro a ha
      obtain ⟨h, hh, rfl⟩ := List.mem_map.1 ha
      exact (hq h (List.mem_range.1 hh)).2.1
    · exact List.mem_map.2 ⟨k, List.mem_range.2 hk24, rfl⟩
  have hix : ∀ {sun out}, disaggregateRadiation api f sun none "mean_course" (.monthly (w.stats (w.stations i).stat).glob.angA
      (w.stats (w.stations i).stat).glob.angB) (.monthly (w.stats (w.stations i).stat).glob.bcA (w.stats (w.stations i).stat).glob.bcC)
      (some (meanDailyCourseByMonth glob)) = .ok out → out.index = hoursOf d0 n := by
    intro sun out ho
    rw [meanCourseRad_eq api R.days hn hg sun none _ _ hcm hch] at ho
    cases ho
    unfold Series.index hourlyS hoursOf
    rw [List.map_map]
    rfl
  obtain ⟨ha, hb⟩ := C84_radiation (api := api) R "mean_course" none h1 h2 h3 rfl
  have hu : usedPotential none "mean_course" (hoursOf d0 n) lon lat tz = none := by
    unfold usedPotential; simp
  rw [hu, hc] at ha hb
  cases hsun : (w.stations i).sun with
  | some sun =>
    obtain ⟨out, ho, hout⟩ := C55_mean_course api R.days hn v hg (some sun) none (.monthly (w.stats (w.stations i).stat).glob.angA
      (w.stats (w.stations i).stat).glob.angB) (.monthly (w.stats (w.stations i).stat).glob.bcA (w.stats (w.stations i).stat).glob.bcC) _ hcm hch
    obtain ⟨h4, h5⟩ := (ha sun hsun).exact ho (hix ho)
    exact ⟨h4, out, h5, hday out hout⟩
  | none =>
    obtain ⟨out, ho, hout⟩ := C55_mean_course api R.days hn v hg (some (getSunTimes f.index lon lat tz)) none
      (.monthly (w.stats (w.stations i).stat).glob.angA (w.stats (w.stations i).stat).glob.angB)
      (.monthly (w.stats (w.stations i).stat).glob.bcA (w.stats (w.stations i).stat).glob.bcC) _ hcm hch
    obtain ⟨h4, h5⟩ := (hb hsun).1.exact ho (hix ho)
    exact ⟨h4, out, h5, hday out hout⟩

/-! ## Examples -/

/-- two days of daily data -/
noncomputable def demoDaily : Frame ℝ :=
  ⟨daysFromTo 0 1, [("wind", [.fin 2, .nan]), ("tmin", [.fin 270, .fin 273]), ("tmax", [.fin 280, .fin 303]), ("glob", [.fin 100, .nan])]⟩

/-- a station with two days of data, whose results have a temperature in every hour, and given statistics -/
noncomputable def demo (st : StatObj) : World where
  stations := fun _ => { lon := some 8, lat := some 49, tz := some 1, daily := some demoDaily, disagg := some 0 }
  stats := fun _ => st
  frames := fun _ => ⟨hoursOf 0 2, [("temp", (hoursOf 0 2).map fun _ => .fin 290), ("precip", (hoursOf 0 2).map fun _ => .nan),
    ("glob", (hoursOf 0 2).map fun _ => .nan), ("hum", (hoursOf 0 2).map fun _ => .nan), ("wind", (hoursOf 0 2).map fun _ => .nan)]⟩

theorem demo_ready (st : StatObj) : Ready (demo st) 0 demoDaily 0 0 2 where
  daily := rfl
  days := rfl
  disagg := rfl
  hours := rfl
  columns := by
    intro c hc
    simp only [List.mem_cons, List.not_mem_nil, or_false] at hc
    rcases hc with rfl | rfl | rfl | rfl | rfl <;> rfl

/-- an optimiser that finds a perfect constant fit and gives up otherwise -/
noncomputable def constantFit (rows : List (ℝ × Int × ℝ)) : Py (ℝ × ℝ × ℝ) :=
  open Classical in if ∀ r ∈ rows, r.2.2 = r.1 then .ok (0, 1, 0) else .error .valueError

/-- C88 (wind): one observed day with 3 m/s in every hour -/
example (draw : Nat → ℝ) : ∃ s' : StatsObj, StatsObj.calcWind constantFit
      { data := some ⟨hoursOf 0 1, [("wind", (hoursOf 0 1).map fun _ => .fin 3)]⟩ } = (s', none) ∧
    ∃ out, (((demo s'.obj).wind .modern 0 draw "cosine").1.frames 0).col? "wind" = some out ∧
      MeanIs (dayCells out 0) 2 ∧ AllNan (dayCells out 1) := by
  have hcol : (⟨hoursOf 0 1, [("wind", (hoursOf 0 1).map fun _ => .fin 3)]⟩ : Frame ℝ).col? "wind" = some (hourlyS 0 1 fun _ _ => .fin 3) := rfl
  have h3 : (day24 fun _ => (3 : ℝ)).sum = 72 := by norm_num [day24, List.range_succ]
  have hfit : StatsObj.calcWind constantFit { data := some ⟨hoursOf 0 1, [("wind", (hoursOf 0 1).map fun _ => .fin 3)]⟩ } =
      ({ obj := { wind := { a := some 0, b := some 1, tShift := some 0 } },
         data := some ⟨hoursOf 0 1, [("wind", (hoursOf 0 1).map fun _ => .fin 3)]⟩ }, none) := by
    unfold StatsObj.calcWind
    dsimp only
    rw [attr_ok hcol, py_ok_bind]
    unfold fitCosineFunction
    rw [fitRows_hourly 0 1 fun _ _ => (3 : ℝ), py_ok_bind]
    have : constantFit ((List.range (24 * 1)).map fun k : Nat => ((day24 fun _ => (3 : ℝ)).sum / 24, ((k % 24 : Nat) : Int), 3)) = .ok (0, 1, 0) := by
      unfold constantFit
      rw [if_pos]
      intro r hr
      obtain ⟨k, _, rfl⟩ := List.mem_map.1 hr
      dsimp only
      rw [h3]
      norm_num
    rw [this]
  refine ⟨_, hfit, ?_⟩
  obtain ⟨_, out, h1, h2⟩ := C88_wind (api := .modern) constantFit (by
    intro rows p h q
    unfold constantFit at h
    split at h
    · rename_i hr
      cases h
      refine le_trans (le_of_eq ?_) (List.sum_nonneg ?_)
      · apply List.sum_eq_zero
        intro x hx
        obtain ⟨r, hr', rfl⟩ := List.mem_map.1 hx
        rw [hr r hr']
        ring
      · intro x hx
        obtain ⟨r, _, rfl⟩ := List.mem_map.1 hx
        positivity
    · cases h) rfl (by omega : 0 < 1) hcol ⟨0, by omega, by rw [h3]; norm_num⟩ hfit (demo_ready _) (by omega) rfl
    (v := fun j => if j = 0 then .fin 2 else .nan) rfl draw
  exact ⟨out, h1, (h2 0 (by omega)).1 2 rfl, (h2 1 (by omega)).2 rfl⟩

/-- C88 (temperature): one observed day whose temperature is the hour; the second day of the station gets 273 K … 303 K -/
example : ∃ s' : StatsObj, StatsObj.calcTemperature
      { obj := { lon := some 8, lat := some 49, tz := some 1 }, data := some ⟨hoursOf 0 1, [("temp", hourObs.values)]⟩ } = (s', none) ∧
    ∃ out, (((demo s'.obj).temperature .modern 0 "mean_course_min_max" "fix" false).1.frames 0).col? "temp" = some out ∧
      MinIs (dayCells out 1) 273 ∧ MaxIs (dayCells out 1) 303 := by
  have hcol : (⟨hoursOf 0 1, [("temp", hourObs.values)]⟩ : Frame ℝ).col? "temp" = some hourObs := rfl
  refine ⟨_, rfl, ?_⟩
  obtain ⟨_, out, h1, h2⟩ := C88_temperature (api := .modern) (s := ⟨{ lon := some 8, lat := some 49, tz := some 1 },
      some ⟨hoursOf 0 1, [("temp", hourObs.values)]⟩⟩) rfl hcol hourObs_num rfl (demo_ready _) (by omega) rfl
    (tmin := fun j => if j = 0 then .fin 270 else .fin 273) (tmax := fun j => if j = 0 then .fin 280 else .fin 303) rfl rfl
    (fun i hi h hh => ⟨_, hourObs_row h hh, by rw [hourObs_month h hh, exMonth i hi], hourObs_hour h hh⟩) "fix" false
  refine ⟨out, h1, h2 1 (by omega) 273 303 rfl rfl (by norm_num) ?_⟩
  rw [exMonth 1 (by omega)]
  exact hourObs_variable

/-- C88 (humidity): two observed saturated hours at 290 K and 280 K, so that the line is dew point = daily minimum; on the first day of the station (tmin
270 K, next day 273 K) the dew point goes from about 270 K to about 273 K -/
example : ∃ s' : StatsObj, StatsObj.calcHumidity { data := some saturated } = (s', none) ∧
    ∃ out, (((demo s'.obj).humidity .modern 0 "linear_dewpoint_variation" false).1.frames 0).col? "hum" = some out ∧
      ∀ h : Nat, h < 24 → ∃ td, |td - (270 + (h : ℝ) / 8)| ≤ 1 / 2 ∧ (dayCells out 0)[h]? = some (.fin (relHum td 290)) := by
  obtain ⟨table, ht⟩ : ∃ t, monthHourPrecipMean saturated = .ok t := ⟨_, rfl⟩
  have hd := saturated_dewOn
  have hfit : StatsObj.calcHumidity { data := some saturated } =
      (({ obj := { hum := { a0 := some 0, a1 := some 1, kr := some 12, table := some table } }, data := some saturated } : StatsObj), none) := by
    unfold StatsObj.calcHumidity
    dsimp only
    rw [saturated_regression]
    dsimp only
    rw [ht]
  refine ⟨_, hfit, ?_⟩
  obtain ⟨_, out, δ, h1, _, h2, _, h3⟩ := C88_humidity (api := .modern) (s := { data := some saturated }) rfl
    (by intro c hc; simp [saturated] at hc; rcases hc with rfl | rfl | rfl <;> rfl) (temp := [(at00 0, .fin 290), (at00 1, .fin 280)])
    (hum := [(at00 0, .fin 100), (at00 1, .fin 100)]) rfl rfl
    (by intro r hr; simp at hr; rcases hr with rfl | rfl <;> exact .inr ⟨_, rfl, by norm_num⟩)
    (by intro r hr; simp at hr; rcases hr with rfl | rfl <;> exact .inr ⟨_, rfl, by norm_num⟩)
    [0, 1] (by decide) (by intro d; rw [hd]; split <;> [simp_all; (split <;> simp_all)])
    (fun d => if d = 0 then 290 else 280) (fun d => if d = 0 then 290 else 280)
    (by intro d hd; simp at hd; rcases hd with rfl | rfl <;> simp [dayCells, at00, numbers])
    (by intro d hd'; simp at hd'; rcases hd' with rfl | rfl <;> rw [hd] <;> simp)
    ⟨0, by simp, 1, by simp, by norm_num⟩ (a1 := 1) (a0 := 0)
    (by
      intro p q
      simp only [List.map_cons, List.map_nil, List.sum_cons, List.sum_nil, if_true, one_ne_zero, if_false]
      nlinarith [sq_nonneg (p * 290 + q - 290), sq_nonneg (p * 280 + q - 280)])
    hfit (demo_ready _) (by omega) rfl (tmin := fun j => if j = 0 then 270 else 273) (T := fun _ _ => 290)
    (by simp [dailyS, demoDaily, daysFromTo, Frame.col?, List.range_succ, at00])
    rfl
  refine ⟨out, h1, fun h hh => ⟨270 + (h : ℝ) / 24 * (273 - 270) + δ h, ?_, ?_⟩⟩
  · have := h2 h
    rw [show (270 + (h : ℝ) / 24 * (273 - 270) + δ h) - (270 + (h : ℝ) / 8) = δ h by ring]
    exact this
  · have hb := abs_le.1 (h2 h)
    have h0 : (0 : ℝ) ≤ h := Nat.cast_nonneg h
    exact h3 0 (by omega) h hh _ 270 273 (by norm_num) (by norm_num) rfl (by norm_num; linarith) (by norm_num)

/-- C88 (radiation): one observed day whose radiation is the hour; the first day of the station has 100 W/m² -/
example : ∃ s' : StatsObj, StatsObj.calcRadiation .modern (fun _ => .error .valueError) (fun _ => .error .valueError)
      ⟨{}, some ⟨hoursOf 0 1, [("glob", hourObs.values)]⟩⟩ none none "monthly" = (s', none) ∧
    ∃ out, (((demo s'.obj).radiation .modern 0 "mean_course" none).1.frames 0).col? "glob" = some out ∧
      ∃ x, MeanIs (dayCells out 0) x ∧ 100 - 0.01 < x ∧ x ≤ 100 := by
  have hcol : (⟨hoursOf 0 1, [("glob", hourObs.values)]⟩ : Frame ℝ).col? "glob" = some hourObs := rfl
  have hfit : StatsObj.calcRadiation .modern (fun _ => .error .valueError) (fun _ => .error .valueError)
      ⟨{}, some ⟨hoursOf 0 1, [("glob", hourObs.values)]⟩⟩ none none "monthly" =
      (⟨{ glob := { course := some (meanDailyCourseByMonth hourObs) } }, some ⟨hoursOf 0 1, [("glob", hourObs.values)]⟩⟩, none) := by
    unfold StatsObj.calcRadiation
    rw [if_neg (by simp)]
    dsimp only
    rw [attr_ok hcol]
  refine ⟨_, hfit, ?_⟩
  obtain ⟨_, out, h1, h2⟩ := C88_radiation (api := .modern) (s := ⟨{}, some ⟨hoursOf 0 1, [("glob", hourObs.values)]⟩⟩) rfl hcol
    (by
      intro r hr
      obtain ⟨k, _, rfl⟩ := List.mem_map.1 hr
      exact .inr ⟨_, Nat.cast_nonneg _, rfl⟩) (api' := .modern) (ang := fun _ => .error .valueError) (bc := fun _ => .error .valueError)
    (daily := none) (dl := none) (how := "monthly") hfit (demo_ready _) (by omega) rfl rfl rfl rfl
    (v := fun j => if j = 0 then .fin 100 else .nan) rfl
    (fun i hi h hh => ⟨_, hourObs_row h hh, by rw [hourObs_month h hh, exMonth i hi], hourObs_hour h hh⟩)
  have h3 := h2 0 (by omega) 100 (if_pos rfl) (by norm_num)
    (fun h hh => ⟨_, hourObs_row h hh, by rw [hourObs_month h hh, exMonth 0 (by omega)], hourObs_hour h hh, by simp⟩)
    ⟨_, hourObs_row 1 (by omega), by rw [hourObs_month 1 (by omega), exMonth 0 (by omega)], 1, by norm_num, by simp⟩
  rw [Nat.cast_zero, add_zero] at h3
  refine ⟨out, ?_, h3⟩
  dsimp only
  exact h1

/-- C88 (shift): the hypotheses hold for one observed day; January is in the table -/
example : ∃ s' : StatsObj, StatsObj.calcTemperature ⟨{ lon := some 8, lat := some 49, tz := some 1 }, some ⟨hoursOf 0 1, [("temp", hourObs.values)]⟩⟩ =
      (s', none) ∧ ∃ table x, s'.obj.temp.maxDelta = some table ∧ ((1, x) : Int × XF ℝ) ∈ table := by
  refine ⟨_, rfl, ?_⟩
  obtain ⟨_, _, _, table, _, _, _, h1, h2, _⟩ := C88_shift (s := ⟨{ lon := some 8, lat := some 49, tz := some 1 },
    some ⟨hoursOf 0 1, [("temp", hourObs.values)]⟩⟩) rfl (temp := hourObs) rfl hourObs_num rfl
  obtain ⟨x, hx⟩ := (h2 1).2 ⟨0, by decide, ⟨atHour 0 0, List.mem_map.2 ⟨_, hourObs_row 0 (by omega), rfl⟩, by decide⟩,
    ⟨atHour 0 0, List.mem_map.2 ⟨_, hourObs_row 0 (by omega), rfl⟩, by decide⟩⟩
  exact ⟨table, x, h1, hx⟩

end World

end Melodist
