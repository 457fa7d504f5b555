import Verif.Lemmas.UnitsWind

/-!
# C98: wind speed and radiation in other units
-/

set_option linter.unusedSectionVars false

namespace Melodist
open Spec

/-- **C98** (wind) Daily wind speeds in other units (`x ↦ s * x`): with the same options and the same random numbers `disaggregate_wind` raises
the same exception, or returns the same type of result with all values in the new units. -/
theorem C98_wind {s : ℝ} (hs : 0 < s) (api : PandasApi) (draw : Nat → ℝ) (daily : Series (XF ℝ)) (method : String) (a b tShift : Option ℝ) :
    (∀ e, disaggregateWind api draw daily method a b tShift = .error e →
      disaggregateWind api draw (seriesInUnits s 0 daily) method a b tShift = .error e) ∧
    (∀ r, disaggregateWind api draw daily method a b tShift = .ok (.series r) →
      disaggregateWind api draw (seriesInUnits s 0 daily) method a b tShift = .ok (.series (seriesInUnits s 0 r))) ∧
    (∀ l, disaggregateWind api draw daily method a b tShift = .ok (.array l) →
      disaggregateWind api draw (seriesInUnits s 0 daily) method a b tShift = .ok (.array (l.map (inUnits s 0)))) := by
  have h := disaggregateWind_units hs api draw daily method a b tShift
  exact ⟨fun e he => by rw [h, he]; rfl, fun r hr => by rw [h, hr]; rfl, fun l hl => by rw [h, hl]; rfl⟩

/-- **C98** (fit of the cosine) The fit of an hourly record in other units: the same exception, or rows for which exactly the same
parameters (a, b, t_shift) are least-squares solutions. -/
theorem C98_fit {s : ℝ} (hs : 0 < s) (wind : Series (XF ℝ)) :
    (∀ e, fitRows wind = .error e → fitRows (seriesInUnits s 0 wind) = .error e) ∧
    (∀ rows, fitRows wind = .ok rows → ∃ rows', fitRows (seriesInUnits s 0 wind) = .ok rows' ∧
      ∀ p, IsLeastSquares rows' p ↔ IsLeastSquares rows p) := by
  have h := fitRows_units (s := s) wind
  exact ⟨fun e he => by rw [h, he]; rfl, fun rows hr => ⟨fitRowsUnits s rows, by rw [h, hr]; rfl, leastSquares_units hs rows⟩⟩

theorem cut_units {s : ℝ} (hs : 0 < s) (v : XF ℝ) : UpToCut s (cut01 v) (cut01 (inUnits s 0 v)) := by
  cases v with
  | nan => exact .inl (by simp [cut01, inUnits])
  | pinf =>
    have : cut01 .pinf = .pinf := by unfold cut01; rw [if_neg]; exact fun h => h
    exact .inl (by simp only [inUnits, this])
  | ninf =>
    have : cut01 .ninf = .fin 0 := by unfold cut01; rw [if_pos]; trivial
    exact .inl (by simp only [inUnits, this]; simp)
  | fin x =>
    simp only [inUnits, cut01, add_zero, XF.lt_fin]
    by_cases h1 : x < 0.01 <;> by_cases h2 : s * x < 0.01
    · simp only [h1, h2, if_true]
      exact .inl (by simp [inUnits])
    · simp only [h1, h2, if_true, if_false]
      exact .inr (.inl ⟨rfl, _, rfl, not_lt.1 h2, mul_lt_mul_of_pos_left h1 hs⟩)
    · simp only [h1, h2, if_true, if_false]
      exact .inr (.inr ⟨rfl, _, rfl, not_lt.1 h1, h2⟩)
    · simp only [h1, h2, if_false]
      exact .inl (by simp [inUnits])

/-- **C98** (radiation) Daily radiation in other units (factor `s`) and potential radiation (or mean course) in other units (factor `u`; for the
methods that compute the daily radiation from the potential one, `u = s`): the same exception, or a result with the same timestamps whose
values are those of the first result in units of the daily radiation, except for the cut of values below 0.01.  In particular the unit
of the potential radiation is irrelevant for methods 'pot_rad' and 'mean_course'. -/
theorem C98_radiation {s u : ℝ} (hs : 0 < s) (hu : 0 < u) {f g : Frame ℝ} (hi : g.index = f.index) (hg : ColumnInUnits s 0 f g "glob")
    (h1 : g.col? "ssd" = f.col? "ssd") (h2 : g.col? "tmin" = f.col? "tmin") (h3 : g.col? "tmax" = f.col? "tmax") (api : PandasApi)
    (sun : Option (Series SunTimes)) (pot : Option (Series (XF ℝ))) (method : String) (hm : method = "pot_rad_via_ssd" ∨ method = "pot_rad_via_bc" → u = s)
    (angstr bristcamp : ParPair ℝ) (course : Option (MeanCourse ℝ)) :
    (∀ e, disaggregateRadiation api f sun pot method angstr bristcamp course = .error e →
      disaggregateRadiation api g sun (pot.map (seriesInUnits u 0)) method angstr bristcamp (course.map (courseInUnits u 0)) = .error e) ∧
    (∀ r, disaggregateRadiation api f sun pot method angstr bristcamp course = .ok r →
      ∃ r', disaggregateRadiation api g sun (pot.map (seriesInUnits u 0)) method angstr bristcamp (course.map (courseInUnits u 0)) = .ok r' ∧
        List.Forall₂ (fun y z => z.1 = y.1 ∧ UpToCut s y.2 z.2) r r') := by
  rw [disaggregate_raw, disaggregate_raw, disaggregateRaw_units hs hu hi hg h1 h2 h3 api sun pot method hm]
  cases disaggregateRaw api f sun pot method angstr bristcamp course with
  | error e => exact ⟨fun e' he => he, fun r hr => (by cases hr)⟩
  | ok x =>
    refine ⟨fun e he => (by cases he), fun r hr => ⟨onValues cut01 (seriesInUnits s 0 x), rfl, ?_⟩⟩
    cases hr
    simp only [onValues, seriesInUnits, List.map_map, List.forall₂_map_left_iff, List.forall₂_map_right_iff, Function.comp_def]
    exact List.forall₂_same.2 fun r _ => ⟨rfl, cut_units hs r.2⟩

/-- **C98** (radiation, unit of the potential radiation only) For 'pot_rad' and 'mean_course' the result is the same, cell by cell. -/
theorem C98_potential {u : ℝ} (hu : 0 < u) (f : Frame ℝ) (api : PandasApi) (sun : Option (Series SunTimes)) (pot : Option (Series (XF ℝ)))
    (method : String) (hm : method = "pot_rad" ∨ method = "mean_course") (angstr bristcamp : ParPair ℝ) (course : Option (MeanCourse ℝ)) :
    disaggregateRadiation api f sun (pot.map (seriesInUnits u 0)) method angstr bristcamp (course.map (courseInUnits u 0)) =
      disaggregateRadiation api f sun pot method angstr bristcamp course := by
  have one : ∀ x : Series (XF ℝ), seriesInUnits 1 0 x = x := by
    intro x
    have : ∀ y : XF ℝ, inUnits 1 0 y = y := by intro y; cases y <;> simp [inUnits]
    simp [seriesInUnits, this]
  have hg : ColumnInUnits 1 0 f f "glob" := by
    unfold ColumnInUnits
    cases f.col? "glob" <;> simp [one]
  have h := disaggregateRaw_units one_pos hu rfl hg rfl rfl rfl api sun pot method (by rcases hm with rfl | rfl <;> simp) angstr bristcamp course
  rw [disaggregate_raw, disaggregate_raw, h]
  cases disaggregateRaw api f sun pot method angstr bristcamp course with
  | error e => rfl
  | ok x => simp only [Except.map, one]

/-! ### the cut depends on the unit -/

/-- 100 W/m² against 0.1 kW/m²: related by `UpToCut`; 5 W/m² are lost when the data are in kW/m², and stay when they are in W/m² -/
example : UpToCut (1 / 1000 : ℝ) (cut01 (.fin 100)) (cut01 (.fin 0.1)) ∧ cut01 (.fin 100) = .fin 100 ∧ cut01 (.fin 0.1) = .fin 0.1 ∧
    UpToCut (1 / 1000 : ℝ) (cut01 (.fin 5)) (cut01 (.fin 0.005)) ∧ cut01 (.fin 5) = .fin 5 ∧ cut01 (.fin 0.005) = .fin 0 := by
  have e1 : cut01 (.fin 100) = .fin 100 := by unfold cut01; rw [if_neg]; simp only [XF.lt_fin]; norm_num
  have e2 : cut01 (.fin 0.1) = .fin 0.1 := by unfold cut01; rw [if_neg]; simp only [XF.lt_fin]; norm_num
  have e3 : cut01 (.fin 5) = .fin 5 := by unfold cut01; rw [if_neg]; simp only [XF.lt_fin]; norm_num
  have e4 : cut01 (.fin 0.005) = .fin 0 := by unfold cut01; rw [if_pos]; simp only [XF.lt_fin]; norm_num
  refine ⟨?_, e1, e2, ?_, e3, e4⟩
  · rw [e1, e2]
    exact .inl (by simp only [inUnits]; norm_num)
  · rw [e3, e4]
    exact .inr (.inr ⟨rfl, 5, rfl, by norm_num, by norm_num⟩)

/-- a single midday hour with 5 W/m²: the same data in kW/m² give 0 -/
example : disaggregateRadiation .modern ⟨[0], [("glob", [.fin 5])]⟩ none (some [(0, .fin 1)]) "pot_rad" = .ok [(0, .fin 5)] ∧
    disaggregateRadiation .modern ⟨[0], [("glob", [.fin 0.005])]⟩ none (some [(0, .fin 1)]) "pot_rad" = .ok [(0, .fin 0)] := by
  have core : ∀ x : ℝ, radiationCore [(0, .fin 1)] [(0, .fin x)] = .ok [(0, cut01 (.fin x))] := by
    intro x
    have hr : Series.resampleD (meanSkip (K := ℝ)) [(0, .fin 1)] = [(0, .fin 1)] := by
      have e : (List.map (fun k : Nat => (0 : Int) + (k : Int)) (List.range ((0 : Int) - 0 + 1).toNat)) = [0] := by decide
      have e2 : meanSkip [XF.fin (1 : ℝ)] = .fin 1 := by
        rw [show [XF.fin (1 : ℝ)] = [(1 : ℝ)].map XF.fin from rfl, meanSkip_eq (nanOrFin_map_fin _) (by simp)]
        simp
      show (List.map (fun k : Nat => (0 : Int) + (k : Int)) (List.range ((0 : Int) - 0 + 1).toNat)).map _ = _
      rw [e]
      show [(0, meanSkip [XF.fin (1 : ℝ)])] = _
      rw [e2]
    have hf : ∀ y : XF ℝ, Series.reindexFfill [(0, y)] [0] = .ok [(0, y)] := by
      intro y
      unfold Series.reindexFfill
      rw [if_pos (by simp [Series.index])]
      rfl
    rw [radiationCore_cut, hr]
    simp only [show Series.index [((0 : Time), XF.fin (1 : ℝ))] = [0] from rfl, hf]
    show Except.ok [((0 : Time), cut01 (.fin 1 / .fin 1 * .fin x))] = _
    simp
  have hi : ∃ l, hourlyIndex .modern [0] = .ok l := by
    refine ⟨_, rfl⟩
  obtain ⟨l, hl⟩ := hi
  have run : ∀ x : ℝ, disaggregateRadiation .modern ⟨[0], [("glob", [.fin x])]⟩ none (some [(0, .fin 1)]) "pot_rad" = .ok [(0, cut01 (.fin x))] := by
    intro x
    unfold disaggregateRadiation
    simp only [hl, bind, Except.bind]
    exact core x
  refine ⟨?_, ?_⟩
  · rw [run, cut01, if_neg]; simp only [XF.lt_fin]; norm_num
  · rw [run, cut01, if_pos]; simp only [XF.lt_fin]; norm_num

end Melodist
