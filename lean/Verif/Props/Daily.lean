import Verif.Lemmas.Daily

/-!
# C05: aggregating an equal distribution recovers the daily values
-/

set_option linter.unusedSectionVars false

namespace Melodist
open Spec

variable {K : Type} [Field K] [LinearOrder K] [IsStrictOrderedRing K]

/-- **C05.** Let `df` be any (well-formed) frame whose index is the complete hourly index of `n` days.  If one of its columns is
the equal distribution of a daily series `v`, `daily_from_hourly` gives `v` back: for temperature and humidity as mean, minimum and
maximum, for radiation and wind as mean, for precipitation (distributed with `divide=True`) as sum; the sum of
a missing day is 0. -/
theorem C05_aggregate_recovers (api : PandasApi) (d0 : Int) (n : Nat) (hn : 0 < n) (df : Frame K) (hwf : df.WF)
    (hidx : df.index = (hourlyS d0 n fun _ _ => ()).map Prod.fst) (v : Nat → XF K) :
    (∀ s, distributeEqually api (dailyS d0 n v) = .ok s →
      (df.col? "temp" = some s → (dailyFromHourly df).col? "temp" = some (dailyS d0 n v) ∧
        (dailyFromHourly df).col? "tmin" = some (dailyS d0 n v) ∧ (dailyFromHourly df).col? "tmax" = some (dailyS d0 n v)) ∧
      (df.col? "hum" = some s → (dailyFromHourly df).col? "hum" = some (dailyS d0 n v) ∧
        (dailyFromHourly df).col? "hum_min" = some (dailyS d0 n v) ∧ (dailyFromHourly df).col? "hum_max" = some (dailyS d0 n v)) ∧
      (df.col? "glob" = some s → (dailyFromHourly df).col? "glob" = some (dailyS d0 n v)) ∧
      (df.col? "wind" = some s → (dailyFromHourly df).col? "wind" = some (dailyS d0 n v))) ∧
    (∀ s, distributeEqually api (dailyS d0 n v) true = .ok s → (∀ i, (v i).NanOrFin) →
      df.col? "precip" = some s →
      (dailyFromHourly df).col? "precip" = some (dailyS d0 n fun i => if v i = .nan then .fin 0 else v i)) := by
  obtain ⟨hT, hP, hG, hH, hW, _⟩ := dailyFromHourly_col df hwf hidx
  constructor
  · intro s hs
    rw [distributeEqually_daily api d0 hn v] at hs
    injection hs with hs
    have hmean : Series.resampleD meanSkip s = dailyS d0 n v := by
      rw [← hs, resampleD_hourlyS]; exact dailyS_congr _ fun i _ => meanSkip_day24_const (v i)
    have hmin : Series.groupbyDate minSkip s = dailyS d0 n v := by
      rw [← hs, groupbyDate_hourlyS]; exact dailyS_congr _ fun i _ => minSkip_day24_const (v i)
    have hmax : Series.groupbyDate maxSkip s = dailyS d0 n v := by
      rw [← hs, groupbyDate_hourlyS]; exact dailyS_congr _ fun i _ => maxSkip_day24_const (v i)
    refine ⟨fun h => ⟨?_, ?_, ?_⟩, fun h => ⟨?_, ?_, ?_⟩, fun h => ?_, fun h => ?_⟩
    · rw [← hmean]; exact hT s h ("temp", Series.resampleD meanSkip) (by simp [csTemp])
    · rw [← hmin]; exact hT s h ("tmin", Series.groupbyDate minSkip) (by simp [csTemp])
    · rw [← hmax]; exact hT s h ("tmax", Series.groupbyDate maxSkip) (by simp [csTemp])
    · rw [← hmean]; exact hH s h ("hum", Series.resampleD meanSkip) (by simp [csHum])
    · rw [← hmin]; exact hH s h ("hum_min", Series.groupbyDate minSkip) (by simp [csHum])
    · rw [← hmax]; exact hH s h ("hum_max", Series.groupbyDate maxSkip) (by simp [csHum])
    · rw [← hmean]; exact hG s h ("glob", Series.resampleD meanSkip) (by simp [csGlob])
    · rw [← hmean]; exact hW s h ("wind", Series.resampleD meanSkip) (by simp [csWind])
  · intro s hs hv h
    rw [distributeEqually_daily_divide api d0 hn v] at hs
    injection hs with hs
    have : Series.resampleD sumSkip s = dailyS d0 n fun i => if v i = .nan then .fin 0 else v i := by
      rw [← hs, resampleD_hourlyS]
      apply dailyS_congr
      intro i _
      have hi := hv i
      have h24 : (24 : K) ≠ 0 := by norm_num
      cases hvi : v i with
      | nan => exact sumSkip_nan (by intro c hc; obtain ⟨_, _, rfl⟩ := mem_day24.1 hc; rfl)
      | fin x =>
        rw [XF.fin_div_fin_of_ne x h24, sumSkip_eq (nanOrFin_day24 fun _ => x / 24), numbers_day24, sum_day24_const]
        simp only [reduceCtorEq, if_false]
        congr 1; field_simp
      | pinf => rw [hvi] at hi; exact absurd hi (by simp)
      | ninf => rw [hvi] at hi; exact absurd hi (by simp)
    rw [← this]
    exact hP s h ("precip", Series.resampleD sumSkip) (by simp [csPrecip])

/-- non-vacuity: a two-day frame with a temperature and a precipitation column -/
example :
    let t : Nat → XF ℚ := fun i => .fin (270 + i)
    let df : Frame ℚ := ⟨(hourlyS 0 2 fun _ _ => ()).map Prod.fst,
      [("temp", (hourlyS 0 2 fun i _ => t i).map Prod.snd)]⟩
    (dailyFromHourly df).col? "tmax" = some (dailyS 0 2 t) := by
  intro t df
  have h := C05_aggregate_recovers .modern 0 2 (by omega) df (by intro c hc; simp [df] at hc; subst hc; simp [df]) rfl t
  have hs := distributeEqually_daily .modern 0 (n := 2) (by omega) t
  refine ((h.1 _ hs).1 ?_).2.2
  rfl

end Melodist
