import Verif.Lemmas.Temperature

/-!
# Helper lemmas for the mean course methods of temperature
-/

set_option linter.unusedSectionVars false

namespace Melodist
open Spec

noncomputable section

variable {daily : Frame ℝ} {d0 : Int} {n : Nat} {tmin tmax temp : Nat → XF ℝ}

theorem temp_hourly_index (api : PandasApi) (hi : daily.index = (List.range n).map fun i : Nat => at00 (d0 + i)) (hn : 0 < n) :
    hourlyIndex api daily.index = .ok (Series.index (hourlyS d0 n fun _ _ => (XF.nan : XF ℝ))) := by
  rw [hi, ← dailyS_index d0 n fun _ => (XF.nan : XF ℝ)]
  exact hourlyIndex_daily api d0 hn _ _ _

theorem lookup_ok {c : MeanCourse ℝ} {m h : Int} (h1 : m ∈ c.months) (h2 : h ∈ c.hours) : c.lookup m h = .ok (c.val m h) := by
  unfold MeanCourse.lookup
  rw [if_pos]
  simp [h1, h2]

theorem lookup_error {c : MeanCourse ℝ} {m h : Int} (h1 : ¬ (m ∈ c.months ∧ h ∈ c.hours)) : c.lookup m h = .error .keyError := by
  unfold MeanCourse.lookup
  rw [if_neg]
  simpa using h1

theorem lookup_cases (c : MeanCourse ℝ) (m h : Int) : c.lookup m h = .error .keyError ∨ ∃ y, c.lookup m h = .ok y := by
  unfold MeanCourse.lookup
  split
  · exact .inr ⟨_, rfl⟩
  · exact .inl rfl

theorem hourlyS_index_atHour {V : Type} (d0 : Int) (n : Nat) (f : Nat → Nat → V) :
    Series.index (hourlyS d0 n f) = (List.range (24 * n)).map fun k : Nat => atHour (d0 + (k / 24 : Nat)) (k % 24) := by
  simp only [Series.index, hourlyS, List.map_map, Function.comp_def]

theorem month_atHour (d : Int) {h : Nat} (hh : h < 24) : monthOf (atHour d h) = monthOf (at00 d) := by
  rw [monthOf_atHour _ hh, monthOf_at00]

/-- the rows of the course for all hours of the output -/
theorem mapM_lookup_ok {c : MeanCourse ℝ} (hc : ∀ i < n, monthOf (at00 (d0 + (i : Nat))) ∈ c.months) (hh : ∀ h : Nat, h < 24 → (h : Int) ∈ c.hours)
    {V : Type} (f : Nat → Nat → V) :
    ((Series.index (hourlyS d0 n f)).mapM fun t => c.lookup (monthOf t) (hourOf t)) =
      .ok ((List.range (24 * n)).map fun k : Nat => c.val (monthOf (at00 (d0 + (k / 24 : Nat)))) (k % 24 : Nat)) := by
  rw [mapM_ok (g := fun t => c.val (monthOf t) (hourOf t))]
  · rw [hourlyS_index_atHour, List.map_map]
    congr 1
    apply List.map_congr_left
    intro k hk
    have hk := List.mem_range.1 hk
    simp only [Function.comp_def]
    rw [month_atHour _ (by omega), hourOf_atHour _ (by omega)]
  · intro t ht
    rw [hourlyS_index_atHour] at ht
    obtain ⟨k, hk, rfl⟩ := List.mem_map.1 ht
    have hk := List.mem_range.1 hk
    apply lookup_ok
    · rw [month_atHour _ (by omega)]; exact hc _ (by omega)
    · rw [hourOf_atHour _ (by omega)]; exact hh _ (by omega)

theorem mapM_lookup_error {c : MeanCourse ℝ} {i h : Nat} (hi : i < n) (hh : h < 24)
    (hx : ¬ (monthOf (at00 (d0 + (i : Nat))) ∈ c.months ∧ (h : Int) ∈ c.hours)) {V : Type} (f : Nat → Nat → V) :
    ((Series.index (hourlyS d0 n f)).mapM fun t => c.lookup (monthOf t) (hourOf t)) = .error .keyError := by
  apply mapM_error
  · intro t _; exact lookup_cases _ _ _
  · refine ⟨atHour (d0 + (i : Nat)) h, ?_, ?_⟩
    · rw [hourlyS_index_atHour]
      refine List.mem_map.2 ⟨24 * i + h, List.mem_range.2 (by omega), ?_⟩
      rw [show (24 * i + h) / 24 = i by omega, show (24 * i + h) % 24 = h by omega]
    · rw [month_atHour _ hh, hourOf_atHour _ hh]
      exact lookup_error hx

theorem zip_hourly {V W : Type} (f : Nat → Nat → V) (g : Nat → Nat → W) (d0 : Int) (n : Nat) :
    (Series.index (hourlyS d0 n f)).zip ((List.range (24 * n)).map fun k : Nat => g (k / 24) (k % 24)) = hourlyS d0 n g := by
  rw [hourlyS_index_atHour]
  unfold hourlyS
  rw [List.zip_eq_zipWith, List.zipWith_map, List.zipWith_self]

/-- 'mean_course_min_max' as a formula -/
theorem courseMinMax_eq (api : PandasApi) (hi : daily.index = (List.range n).map fun i : Nat => at00 (d0 + i)) (hn : 0 < n)
    (hmin : daily.col? "tmin" = some (dailyS d0 n tmin)) (hmax : daily.col? "tmax" = some (dailyS d0 n tmax)) (mmt : String) (modNight : Bool)
    (md : Option (List (Int × XF ℝ))) (sun : Option (Series SunTimes)) {c : MeanCourse ℝ}
    (hc : ∀ i < n, monthOf (at00 (d0 + (i : Nat))) ∈ c.months) (hh : ∀ h : Nat, h < 24 → (h : Int) ∈ c.hours) :
    disaggregateTemperature api daily "mean_course_min_max" mmt modNight md (some c) sun =
      .ok (hourlyS d0 n fun i h => c.val (monthOf (at00 (d0 + (i : Nat)))) (h : Nat) * (tmax i - tmin i) + tmin i) := by
  unfold disaggregateTemperature
  rw [if_neg (by simp), temp_hourly_index api hi hn, py_ok_bind, if_neg (by decide), if_pos rfl]
  unfold courseMinMax
  dsimp only
  rw [mapM_lookup_ok hc hh, py_ok_bind, attr_ok hmin, py_ok_bind, reindexFfill_limit_daily_hourly, py_ok_bind, attr_ok hmax, py_ok_bind,
    reindexFfill_limit_daily_hourly, py_ok_bind]
  congr 1
  rw [hourlyS_values, hourlyS_values, List.zip_eq_zipWith, List.zip_eq_zipWith, List.zip_eq_zipWith, List.zipWith_map, List.zipWith_self,
    List.zipWith_map, List.zipWith_self, hourlyS_index_atHour, List.zipWith_map, List.zipWith_self, List.map_map]
  rfl

/-- 'mean_course_mean' as a formula -/
theorem courseMean_eq (api : PandasApi) (hd : TempDays daily d0 n tmin tmax temp) (hn : 0 < n) (mmt : String) (modNight : Bool)
    (md : Option (List (Int × XF ℝ))) (sun : Option (Series SunTimes)) {c : MeanCourse ℝ}
    (hc : ∀ i < n, monthOf (at00 (d0 + (i : Nat))) ∈ c.months) (hh : ∀ h : Nat, h < 24 → (h : Int) ∈ c.hours) :
    disaggregateTemperature api daily "mean_course_mean" mmt modNight md (some c) sun =
      .ok (hourlyS d0 n fun i h => temp i + (tmax i - tmin i) *
        (c.val (monthOf (at00 (d0 + (i : Nat)))) (h : Nat) - meanSkip (c.column (monthOf (at00 (d0 + (i : Nat))))))) := by
  unfold disaggregateTemperature
  rw [if_neg (by simp), temp_hourly_index api hd.index hn, py_ok_bind, if_neg (by decide), if_neg (by decide)]
  unfold courseMean
  rw [attr_ok hd.hmax, py_ok_bind, reindexFfill_limit_daily_hourly, py_ok_bind, attr_ok hd.hmin, py_ok_bind,
    reindexFfill_limit_daily_hourly, py_ok_bind]
  dsimp only
  rw [mapM_lookup_ok (c := c.zeroMean) hc hh, py_ok_bind, attr_ok hd.htemp, py_ok_bind, reindexFfill_limit_daily_hourly, py_ok_bind]
  congr 1
  rw [hourlyS_values, hourlyS_values, hourlyS_values, List.zip_eq_zipWith, List.zip_eq_zipWith, List.zip_eq_zipWith, List.zip_eq_zipWith,
    List.zipWith_map, List.zipWith_self, List.zipWith_map, List.zipWith_self, List.zipWith_map, List.zipWith_self,
    hourlyS_index_atHour, List.zipWith_map, List.zipWith_self, List.map_map]
  rfl

end

end Melodist
