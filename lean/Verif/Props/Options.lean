import Verif.Model.Names
import Verif.Props.FileColumns
import Verif.Props.Wind
import Verif.Props.Radiation

/-!
# C122: the names in `melodist.Options` and the column lists of the package
-/

set_option linter.unusedSectionVars false

namespace Melodist
open Spec

noncomputable section

/-- **C122 (options).**  For every station in every state, every attribute of `melodist.Options` used as `method` of the five disaggregation methods of
`Station`: outside the list of attributes meant for the variable the call raises an exception and changes nothing that is stored (radiation may
compute the sun times first).  The attribute TEMP_LINEAR is in none of the lists. -/
theorem C122_options (api : PandasApi) (w : World) (i : Nat) {attr method : String} (h : (attr, method) ∈ optionNames) :
    (attr ≠ "TEMP_SINE_CURVE" → ∀ mmt modNight, ∃ e, w.temperature api i method mmt modNight = (w, some e)) ∧
    (attr ∉ ["EQUAL_DISTRIBUTION", "WIND_FITTED_COSINE", "WIND_RANDOM_EXPONENTIAL"] → ∀ draw, ∃ e, w.wind api i draw method = (w, some e)) ∧
    (attr ∉ ["EQUAL_DISTRIBUTION", "HUMIDITY_MINIMAL", "HUMIDITY_DEWPOINT_REGRESSION", "HUMIDITY_MIN_MAX", "HUMIDITY_LINEAR_DEWPOINT_VARIATION"] →
      ∀ preserve, ∃ e, w.humidity api i method preserve = (w, some e)) ∧
    (attr ∉ ["EQUAL_DISTRIBUTION", "PREC_CASCADE", "PREC_MASTER_STATION"] → ∀ rnd zerodiv shift master,
      ∃ e, w.precipitation api i rnd method zerodiv shift master = (w, some e)) ∧
    (attr ∉ ["POT_RAD", "POT_RAD_VIA_SSD", "POT_RAD_VIA_BC"] → ∀ pot, ∃ w' e, w.radiation api i method pot = (w', some e) ∧
      w'.frames = w.frames ∧ w'.stats = w.stats ∧ ∀ j, (w'.stations j).daily = (w.stations j).daily ∧ (w'.stations j).disagg = (w.stations j).disagg) := by
  have hmem : (attr, method) ∈ optionNames := h
  simp only [optionNames, List.mem_cons, List.not_mem_nil, or_false, Prod.mk.injEq] at h
  refine ⟨?_, ?_, ?_, ?_, ?_⟩
  · intro ha mmt modNight
    have hm : method ∉ ["sine_min_max", "sine_mean", "sine", "mean_course_min_max", "mean_course_mean"] := by
      rcases h with ⟨rfl, rfl⟩ | ⟨rfl, rfl⟩ | ⟨rfl, rfl⟩ | ⟨rfl, rfl⟩ | ⟨rfl, rfl⟩ | ⟨rfl, rfl⟩ | ⟨rfl, rfl⟩ | ⟨rfl, rfl⟩ | ⟨rfl, rfl⟩ | ⟨rfl, rfl⟩ |
        ⟨rfl, rfl⟩ | ⟨rfl, rfl⟩ | ⟨rfl, rfl⟩ | ⟨rfl, rfl⟩ <;> first | exact absurd rfl ha | decide
    unfold World.temperature
    cases hd : (w.stations i).daily with
    | none =>
      refine ⟨.valueError, writeCol_error _ _ _ ?_⟩
      dsimp only
      rw [if_neg (by simpa using hm)]
    | some f =>
      refine ⟨.valueError, writeCol_error _ _ _ ?_⟩
      dsimp only
      rw [(C52_options api f modNight _ _ _).1 method mmt hm]
      rfl
  · intro ha draw
    have hm : method ∉ ["equal", "cosine", "random"] := by
      rcases h with ⟨rfl, rfl⟩ | ⟨rfl, rfl⟩ | ⟨rfl, rfl⟩ | ⟨rfl, rfl⟩ | ⟨rfl, rfl⟩ | ⟨rfl, rfl⟩ | ⟨rfl, rfl⟩ | ⟨rfl, rfl⟩ | ⟨rfl, rfl⟩ | ⟨rfl, rfl⟩ |
        ⟨rfl, rfl⟩ | ⟨rfl, rfl⟩ | ⟨rfl, rfl⟩ | ⟨rfl, rfl⟩ <;> first | exact absurd (by decide) ha | decide
    unfold World.wind
    cases hd : w.dailyAttr i "wind" with
    | error e => exact ⟨e, writeCol_error _ _ _ rfl⟩
    | ok daily =>
      refine ⟨.assertionError, writeCol_error _ _ _ ?_⟩
      rw [py_ok_bind]
      exact (C35_wind_options api draw method _ _ _).1 daily hm
  · intro ha preserve
    have hm : method ∉ ["equal", "minimal", "dewpoint_regression", "min_max", "linear_dewpoint_variation", "month_hour_precip_mean"] := by
      rcases h with ⟨rfl, rfl⟩ | ⟨rfl, rfl⟩ | ⟨rfl, rfl⟩ | ⟨rfl, rfl⟩ | ⟨rfl, rfl⟩ | ⟨rfl, rfl⟩ | ⟨rfl, rfl⟩ | ⟨rfl, rfl⟩ | ⟨rfl, rfl⟩ | ⟨rfl, rfl⟩ |
        ⟨rfl, rfl⟩ | ⟨rfl, rfl⟩ | ⟨rfl, rfl⟩ | ⟨rfl, rfl⟩ <;> first | exact absurd (by decide) ha | decide
    unfold World.humidity
    cases hd : w.disaggAttr i "temp" with
    | error e => exact ⟨e, writeCol_error _ _ _ rfl⟩
    | ok temp =>
      cases hf : (w.stations i).daily with
      | none => exact ⟨.attributeError, writeCol_error _ _ _ rfl⟩
      | some f =>
        refine ⟨.assertionError, writeCol_error _ _ _ ?_⟩
        rw [py_ok_bind]
        dsimp only
        rw [(C42_invalid_options api f (some temp) _ _ _ _ preserve).1 method hm]
        rfl
  · intro ha rnd zerodiv shift master
    have hm : method ∉ ["equal", "cascade", "masterstation"] := by
      rcases h with ⟨rfl, rfl⟩ | ⟨rfl, rfl⟩ | ⟨rfl, rfl⟩ | ⟨rfl, rfl⟩ | ⟨rfl, rfl⟩ | ⟨rfl, rfl⟩ | ⟨rfl, rfl⟩ | ⟨rfl, rfl⟩ | ⟨rfl, rfl⟩ | ⟨rfl, rfl⟩ |
        ⟨rfl, rfl⟩ | ⟨rfl, rfl⟩ | ⟨rfl, rfl⟩ | ⟨rfl, rfl⟩ <;> first | exact absurd (by decide) ha | decide
    simp only [List.mem_cons, List.not_mem_nil, or_false, not_or] at hm
    refine ⟨.unboundLocalError, ?_⟩
    unfold World.precipitation
    refine writeCol_error _ _ _ ?_
    unfold World.precipSeries
    rw [if_neg hm.1, if_neg hm.2.1, if_neg hm.2.2]
    rfl
  · intro ha pot
    have hm : method ∉ ["pot_rad", "pot_rad_via_ssd", "pot_rad_via_bc", "mean_course"] := by
      rcases h with ⟨rfl, rfl⟩ | ⟨rfl, rfl⟩ | ⟨rfl, rfl⟩ | ⟨rfl, rfl⟩ | ⟨rfl, rfl⟩ | ⟨rfl, rfl⟩ | ⟨rfl, rfl⟩ | ⟨rfl, rfl⟩ | ⟨rfl, rfl⟩ | ⟨rfl, rfl⟩ |
        ⟨rfl, rfl⟩ | ⟨rfl, rfl⟩ | ⟨rfl, rfl⟩ | ⟨rfl, rfl⟩ <;> first | exact absurd (by decide) ha | decide
    have key : ∀ v : World, ∃ e, v.radiationBody api i method pot = (v, some e) := by
      intro v
      unfold World.radiationBody
      cases hp : v.potRadArg i method pot with
      | error e => exact ⟨e, writeCol_error _ _ _ rfl⟩
      | ok p =>
        cases hf : (v.stations i).daily with
        | none => exact ⟨.attributeError, writeCol_error _ _ _ rfl⟩
        | some f =>
          refine ⟨.valueError, writeCol_error _ _ _ ?_⟩
          rw [py_ok_bind]
          dsimp only
          rw [(C82_options (d0 := 0) (n := 0) api f _ p method _ _ _).1 hm]
          rfl
    unfold World.radiation
    split
    · rcases World.calcSunTimes_inv w i with ⟨e, h'⟩ | ⟨f', lon, lat, tz, hf', _, _, _, h'⟩
      · rw [h']
        exact ⟨w, e, rfl, rfl, rfl, fun j => ⟨rfl, rfl⟩⟩
      · rw [h']
        dsimp only
        obtain ⟨e, he⟩ := key (w.setStation i { w.stations i with sun := some (getSunTimes f'.index lon lat tz) })
        refine ⟨_, e, he, rfl, rfl, fun j => ?_⟩
        by_cases hj : j = i
        · subst hj; simp [World.setStation]
        · simp [World.setStation, Function.update_of_ne hj]
    · obtain ⟨e, he⟩ := key w
      exact ⟨w, e, he, rfl, rfl, fun j => ⟨rfl, rfl⟩⟩

/-- **C122 (sine).**  The value of TEMP_SINE_CURVE does the same as the default method 'sine_min_max', in every state. -/
theorem C122_sine_curve (api : PandasApi) (w : World) (i : Nat) (mmt : String) (modNight : Bool) {method : String}
    (h : ("TEMP_SINE_CURVE", method) ∈ optionNames) : w.temperature api i method mmt modNight = w.temperature api i "sine_min_max" mmt modNight := by
  obtain rfl : method = "sine" := by simpa [optionNames] using h
  unfold World.temperature
  cases (w.stations i).daily with
  | none => simp
  | some f =>
    dsimp only
    congr 2

/-- **C122 (columns).**  After every successful assignment of daily data the columns of `data_disagg` are those in `melodist.columns_hourly`, in this
order.  A daily frame with exactly the columns in `melodist.columns_daily` can be disaggregated by no temperature method but
'mean_course_min_max'. -/
theorem C122_columns {api : PandasApi} {w w' : World} {i : Nat} {f : Frame ℝ} {dt fr : Bool} (h : w.setDaily api i (.frame f dt fr) = (w', none)) :
    (∃ k, (w'.stations i).disagg = some k ∧ (w'.frames k).cols.map (fun c => c.1) = packageColumnsHourly) ∧
    (f.cols.map (fun c => c.1) = packageColumnsDaily → ∀ method mmt modNight, method ≠ "mean_course_min_max" →
      ∃ e, w'.temperature api i method mmt modNight = (w', some e)) := by
  constructor
  · unfold World.setDaily at h
    split at h
    · cases h
    · rename_i g hg
      dsimp only at h
      split at h
      · cases h
      · rename_i idx hidx
        split at h
        · rcases World.calcSunTimes_inv _ i with ⟨e, h'⟩ | ⟨f', lon, lat, tz, hf', _, _, _, h'⟩
          · rw [h'] at h; cases h
          · rw [h'] at h
            cases h
            refine ⟨w.nFrames, by simp [World.setStation, World.setFrame], ?_⟩
            simp [World.setStation, World.setFrame, emptyDisagg, columnsHourly, packageColumnsHourly]
        · cases h
          refine ⟨w.nFrames, by simp [World.setStation, World.setFrame], ?_⟩
          simp [World.setStation, World.setFrame, emptyDisagg, columnsHourly, packageColumnsHourly]
  · intro hc
    exact (C121_station h).1 (by rw [hc]; decide)

/-- C122: 'linear' fails everywhere -/
example (w : World) : (∃ e, w.temperature .modern 0 "linear" "fix" false = (w, some e)) ∧ (∃ e, w.wind .modern 0 (fun _ => 0) "linear" = (w, some e)) ∧
    ∃ e, w.humidity .modern 0 "linear" false = (w, some e) := by
  obtain ⟨h1, h2, h3, _⟩ := C122_options .modern w 0 (attr := "TEMP_LINEAR") (method := "linear") (by decide)
  exact ⟨h1 (by decide) _ _, h2 (by decide) _, h3 (by decide) _⟩

end

end Melodist
