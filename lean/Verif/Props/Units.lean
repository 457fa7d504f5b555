import Verif.Lemmas.Units
import Verif.Props.TemperatureD

/-!
# C97: temperatures in other units

Temperatures may be given in degrees Celsius, kelvin or degrees Fahrenheit: the course of the day does not depend on the choice.
-/

set_option linter.unusedSectionVars false

namespace Melodist
open Spec

/-- **C97** (temperature) Two daily tables with the same days, the second with `tmin`, `tmax` and `temp` in other units
(`x ↦ s * x + c`, `s > 0`; the same columns are missing, NaN where the first is NaN): with the same options `disaggregate_temperature` either
raises the same exception for both or returns for the second the course of the first in the new units.  All five methods, all options. -/
theorem C97_temperature {s c : ℝ} (hs : 0 < s) {f g : Frame ℝ} (hi : g.index = f.index) (h1 : ColumnInUnits s c f g "tmin")
    (h2 : ColumnInUnits s c f g "tmax") (h3 : ColumnInUnits s c f g "temp") (api : PandasApi) (method minMaxTime : String) (modNight : Bool)
    (maxDelta : Option (List (Int × XF ℝ))) (course : Option (MeanCourse ℝ)) (sun : Option (Series SunTimes)) :
    (∀ e, disaggregateTemperature api f method minMaxTime modNight maxDelta course sun = .error e →
      disaggregateTemperature api g method minMaxTime modNight maxDelta course sun = .error e) ∧
    (∀ r, disaggregateTemperature api f method minMaxTime modNight maxDelta course sun = .ok r →
      disaggregateTemperature api g method minMaxTime modNight maxDelta course sun = .ok (seriesInUnits s c r)) := by
  have h := disaggregateTemperature_units hs hi h1 h2 h3 api method minMaxTime modNight maxDelta course sun
  exact ⟨fun e he => by rw [h, he]; rfl, fun r hr => by rw [h, hr]; rfl⟩

/-- **C97** (statistics) What is learnt from an hourly temperature record in other units: the mean courses are those of the record in the
new units, the normalised mean courses and the shift of the maximum against solar noon do not change at all. -/
theorem C97_statistics {s c : ℝ} (hs : 0 < s) (x : Series (XF ℝ)) :
    meanDailyCourseByMonth (seriesInUnits s c x) = courseInUnits s c (meanDailyCourseByMonth x) ∧
    meanDailyCourseByMonth (seriesInUnits s c x) true = meanDailyCourseByMonth x true ∧
    ∀ lon lat tz, getShiftByData (seriesInUnits s c x) lon lat tz = getShiftByData x lon lat tz :=
  ⟨course_units x, normalised_units hs x, fun lon lat tz => getShiftByData_units hs x lon lat tz⟩

/-- **C97** (daily values) `daily_from_hourly` of a table with every column in new units is the table of daily values in those units,
provided extremes are read in the units of their variable and the summed variables (precipitation, sunshine) are only rescaled. -/
theorem C97_daily {K : Type} [Field K] [LinearOrder K] [IsStrictOrderedRing K] {u : String → K × K} (hp : ∀ n, 0 < (u n).1)
    (h1 : u "tmin" = u "temp") (h2 : u "tmax" = u "temp") (h3 : u "hum_min" = u "hum") (h4 : u "hum_max" = u "hum")
    (h5 : (u "precip").2 = 0) (h6 : (u "ssd").2 = 0) (f : Frame K) :
    dailyFromHourly (frameInUnits u f) = frameInUnits u (dailyFromHourly f) :=
  dailyFromHourly_units hp h1 h2 h3 h4 h5 h6 f

/-- **C97** (from the hourly record to the generated course) Statistics from an hourly record, daily values from an hourly table, and the
course of those days by any of the methods: everything in degrees Fahrenheit gives the degrees-Celsius result in degrees Fahrenheit. -/
theorem C97_whole {s c : ℝ} (hs : 0 < s) (past : Series (XF ℝ)) (f : Frame ℝ) (api : PandasApi) (method minMaxTime : String) (modNight : Bool)
    (lon lat tz : ℝ) (sun : Option (Series SunTimes)) (r : Series (XF ℝ))
    (hr : disaggregateTemperature api (dailyFromHourly f) method minMaxTime modNight (some (getShiftByData past lon lat tz))
      (some (meanDailyCourseByMonth past true)) sun = .ok r) :
    disaggregateTemperature api
      (dailyFromHourly (frameInUnits (fun n => if n = "temp" ∨ n = "tmin" ∨ n = "tmax" then (s, c) else (1, 0)) f)) method minMaxTime modNight
      (some (getShiftByData (seriesInUnits s c past) lon lat tz)) (some (meanDailyCourseByMonth (seriesInUnits s c past) true)) sun =
        .ok (seriesInUnits s c r) := by
  have hu := C97_statistics (c := c) hs past
  rw [hu.2.1, hu.2.2, C97_daily]
  · have hc : ∀ n : String, n = "temp" ∨ n = "tmin" ∨ n = "tmax" → ColumnInUnits s c (dailyFromHourly f)
        (frameInUnits (fun n => if n = "temp" ∨ n = "tmin" ∨ n = "tmax" then (s, c) else (1, 0)) (dailyFromHourly f)) n := by
      intro n hn
      unfold ColumnInUnits
      rw [frameInUnits_col]
      simp [hn]
    exact (C97_temperature (f := dailyFromHourly f) (g := frameInUnits _ (dailyFromHourly f)) hs rfl (hc "tmin" (by simp)) (hc "tmax" (by simp)) (hc "temp" (by simp)) ..).2 r hr
  · intro n
    show 0 < (if _ then _ else _ : ℝ × ℝ).1
    split
    · exact hs
    · exact one_pos
  all_goals simp

/-! ### a day in degrees Celsius and in degrees Fahrenheit -/

noncomputable section example_units

/-- one day, -40 to 20 °C, mean 10 °C -/
private def celsius : Frame ℝ := ⟨[0], [("tmin", [.fin (-40)]), ("tmax", [.fin 20]), ("temp", [.fin 10])]⟩

/-- the same day in °F -/
private def fahrenheit : Frame ℝ := ⟨[0], [("temp", [.fin 50]), ("tmax", [.fin 68]), ("tmin", [.fin (-40)])]⟩

/-- the hypotheses of C97_temperature hold for the two tables -/
example : (0 : ℝ) < 9 / 5 ∧ fahrenheit.index = celsius.index ∧ ColumnInUnits (9 / 5) 32 celsius fahrenheit "tmin" ∧
    ColumnInUnits (9 / 5) 32 celsius fahrenheit "tmax" ∧ ColumnInUnits (9 / 5) 32 celsius fahrenheit "temp" := by
  have h : ∀ n x y, celsius.col? n = some [(0, .fin x)] → fahrenheit.col? n = some [(0, .fin y)] → y = 9 / 5 * x + 32 →
      ColumnInUnits (9 / 5) 32 celsius fahrenheit n := by
    intro n x y h1 h2 h3
    rw [ColumnInUnits, h1, h2, h3]
    rfl
  exact ⟨by norm_num, rfl, h _ (-40) (-40) rfl rfl (by norm_num), h _ 20 68 rfl rfl (by norm_num), h _ 10 50 rfl rfl (by norm_num)⟩

/-- the two days of the examples for C80, there in kelvin, with 0 °C = 273 K: 15 °C at 8 o'clock of the first day -/
example : ∃ out, disaggregateTemperature .modern (frameInUnits (fun _ => (1, -273)) exFrame) "sine_min_max" "fix" false none none (some exSun) =
      .ok out ∧ (dayCells out (0 + (0 : Nat)))[8]? = some (.fin 15) := by
  obtain ⟨out, h⟩ := exOk (.inl rfl) false
  refine ⟨_, (C97_temperature (s := 1) (c := -273) (f := exFrame) (g := frameInUnits (fun _ => (1, -273)) exFrame) one_pos rfl
    (frameInUnits_col ..) (frameInUnits_col ..) (frameInUnits_col ..) ..).2 out h, ?_⟩
  rw [show dayCells (seriesInUnits 1 (-273) out) (0 + (0 : Nat)) = (dayCells out (0 + (0 : Nat))).map (inUnits 1 (-273)) from
    rows_units out fun t => decide (t / 86400000000 = 0 + (0 : Nat))]
  rw [List.getElem?_map, C80_course .modern exDays _ _ (.inl rfl) _ _ _ out h 0 (by decide) 283 273 293 293 rfl rfl rfl rfl 7 14
    (.inl ⟨rfl, rfl, rfl⟩) 8 (by decide) 283 293 (by norm_num) (by norm_num)]
  simp only [Option.map_some, inUnits]
  congr 2
  rw [show 2 * Real.pi * (((8 : Nat) : ℝ) - (14 : Int)) / 24 = -(Real.pi / 2) by push_cast; ring, Real.cos_neg, Real.cos_pi_div_two]
  norm_num

end example_units

end Melodist
