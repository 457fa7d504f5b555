import Verif.Props.RowsOutB
import Verif.Props.BuildCasc

/-!
# C126  Rows without observations: whole tables, the cascade, concrete cases
-/
set_option linter.unusedSectionVars false

namespace Melodist
open Spec
variable {K : Type}

/-- **C126 (wind, from a table).** Leaving out rows without any value from the table of observations does not change the fitted wind parameters. -/
theorem C126_wind_table (optimise : List (ℝ × Int × ℝ) → Py (ℝ × ℝ × ℝ)) {f : Frame ℝ} (hwf : f.WF) {is : List Nat} (h : LeavesOutMissing is f)
    (hs : is.Pairwise (· < ·)) :
    (do fitCosineFunction optimise (← (ilocF is f).attr "wind")) = (do fitCosineFunction optimise (← f.attr "wind")) := by
  cases hc : f.col? "wind" with
  | none => rw [attr_missing hc, attr_missing (by rw [iloc_col? hwf, hc]; rfl)]
  | some s =>
    have hc' : (ilocF is f).col? "wind" = some (ilocS is s) := by rw [iloc_col? hwf, hc]; rfl
    rw [attr_ok hc, attr_ok hc', py_ok_bind, py_ok_bind]
    exact (C126_wind_same optimise (obs_iloc_eq hs (col_missing hwf h hc).1 (col_missing hwf h hc).2)).symm

/-- **C126 (shift of the maximum, from a table).** -/
theorem C126_shift_table {f : Frame ℝ} (hwf : f.WF) {is : List Nat} (h : LeavesOutMissing is f) (hs : is.Pairwise (· < ·)) {temp : Series (XF ℝ)}
    (hc : f.col? "temp" = some temp) (lon lat tz : ℝ) :
    ∃ temp', (ilocF is f).col? "temp" = some temp' ∧ (∀ x ∈ getShiftByData temp' lon lat tz, x ∈ getShiftByData temp lon lat tz) ∧
      ∀ x ∈ getShiftByData temp lon lat tz, x.2 = .nan ∨ x ∈ getShiftByData temp' lon lat tz := by
  refine ⟨ilocS is temp, by rw [iloc_col? hwf, hc]; rfl, ?_⟩
  refine C126_shift (obs_iloc_eq hs (col_missing hwf h hc).1 (col_missing hwf h hc).2) ?_ lon lat tz
  intro t ht
  obtain ⟨r, hr, rfl⟩ := List.mem_map.1 ht
  exact List.mem_map_of_mem (iloc_mem hr)

/-- 5-minute values with a missing one -/
def exGap5 : Series (XF ℚ) := [(0, .fin 3), (5 * MINUTE, .nan), (10 * MINUTE, .fin 1), (15 * MINUTE, .fin 1), (20 * MINUTE, .fin 1)]

/-- **C126 (the cascade is different).** The cascade statistics pair neighbouring rows, so leaving out a row without value changes them: here the volume threshold
is 2 with the missing row and 3 without it. -/
theorem C126_cascade_differs :
    ∃ s s', (buildCasc exGap5 false 1 (some [[1]]) true 50).2 = .ok [.inl s] ∧ (buildCasc (ilocS [0, 2, 3, 4] exGap5) false 1 (some [[1]]) true 50).2 = .ok [.inl s'] ∧
      s.threshold = [.fin 2] ∧ s'.threshold = [.fin 3] := by
  have h : okAnd (buildCasc exGap5 false 1 (some [[1]]) true 50).2 (fun r => match r with
      | [.inl s] => decide (s.threshold = [.fin 2])
      | _ => false) = true := by decide +kernel
  have h' : okAnd (buildCasc (ilocS [0, 2, 3, 4] exGap5) false 1 (some [[1]]) true 50).2 (fun r => match r with
      | [.inl s] => decide (s.threshold = [.fin 3])
      | _ => false) = true := by decide +kernel
  obtain ⟨r, h1, h2⟩ := okAnd_iff.1 h
  obtain ⟨r', h1', h2'⟩ := okAnd_iff.1 h'
  split at h2
  · split at h2'
    · rename_i a b
      exact ⟨_, _, h1, h1', by simpa using h2, by simpa using h2'⟩
    · simp at h2'
  · simp at h2

/-! ## concrete cases -/

/-- three hours, the second without any value -/
def exHours : Frame ℚ := ⟨[0, HOUR, 2 * HOUR], [("temp", [.fin 280, .nan, .fin 282]), ("hum", [.fin 80, .nan, .nan]), ("precip", [.fin 0, .nan, .fin 1])]⟩

theorem exHours_wf : exHours.WF := by
  intro c hc
  simp only [exHours, List.mem_cons, List.not_mem_nil, or_false] at hc
  rcases hc with rfl | rfl | rfl <;> rfl

theorem exHours_out : LeavesOutMissing [2, 0] exHours := by
  refine ⟨by decide, by decide, ?_⟩
  decide

/-- the same hours without the second row and in reverse order -/
example : ilocF [2, 0] exHours = ⟨[2 * HOUR, 0], [("temp", [.fin 282, .fin 280]), ("hum", [.nan, .fin 80]), ("precip", [.fin 1, .fin 0])]⟩ := by decide +kernel

/-- means by month, hour and wet or dry day: the entry of 1:00 is lost, it was missing -/
example : ∃ t t', monthHourPrecipMean exHours = .ok t ∧ monthHourPrecipMean (ilocF [2, 0] exHours) = .ok t' ∧ ((1, 1, true), .nan) ∈ t ∧
    ((1, 0, true), .fin 80) ∈ t ∧ ((1, 0, true), .fin 80) ∈ t' ∧ (∀ x ∈ t', x ∈ t) := by
  rcases C126_month_hour_precip exHours_wf exHours_out with ⟨e, h, _⟩ | ⟨t, t', h, h', h1, h2⟩
  · have : okAnd (monthHourPrecipMean exHours) (fun _ => true) = true := by decide +kernel
    rw [h] at this; cases this
  · have a : okAnd (monthHourPrecipMean exHours) (fun t => decide (((1, 1, true), .nan) ∈ t ∧ ((1, 0, true), .fin 80) ∈ t)) = true := by decide +kernel
    rw [h] at a
    have a := of_decide_eq_true (show decide (((1, 1, true), .nan) ∈ t ∧ ((1, 0, true), .fin 80) ∈ t) = true from a)
    refine ⟨t, t', h, h', a.1, a.2, ?_, h1⟩
    rcases h2 _ a.2 with e | e
    · cases e
    · exact e

example : ∃ s, exHours.col? "temp" = some s ∧ (meanDailyCourseByMonth s true).lookup 1 2 = .ok (.fin 1) ∧
    (meanDailyCourseByMonth (ilocS [2, 0] s) true).lookup 1 2 = .ok (.fin 1) ∧ (meanDailyCourseByMonth s true).lookup 1 1 = .ok .nan ∧
    (meanDailyCourseByMonth (ilocS [2, 0] s) true).lookup 1 1 = .error .keyError := by
  refine ⟨_, rfl, ?_, ?_, ?_, ?_⟩ <;> decide +kernel

/-- the order matters for the hour of the maximum if the maximum occurs twice -/
example : firstMaxHour [(0, .fin 280), (HOUR, .fin 280)] 0 = some 0 ∧ firstMaxHour [(HOUR, .fin 280), (0, .fin 280)] 0 = some 1 := by
  constructor <;> simp [firstMaxHour, dayOf, hourOf, maxSkip, XF.lt, XF.feq, Series.values, XF.isNan]

end Melodist
