import Verif.Lemmas.Moved
import Verif.Lemmas.Calendar
import Verif.Lemmas.Humidity
import Verif.Lemmas.Locality
import Verif.Model.Wind
import Verif.Spec.Locality

/-!
# C124  The same values on other dates
-/
set_option linter.unusedSectionVars false

namespace Melodist
open Spec
variable {K : Type}

/-- `k` days later the days from `a` to `b` fall into the same months -/
def Spec.SameMonths (a b k : Int) : Prop := ∀ d, a ≤ d → d ≤ b → monthOf (at00 (d + k)) = monthOf (at00 d)

/-- `k` days later the days from `a` to `b` have the same number within the year -/
def Spec.SameDayOfYear (a b k : Int) : Prop := ∀ d, a ≤ d → d ≤ b → doyOf (at00 (d + k)) = doyOf (at00 d)

/-- all timestamps lie on the days from `a` to `b` -/
def Spec.WithinDays (ts : List Time) (a b : Int) : Prop := ∀ t ∈ ts, a ≤ dayOf t ∧ dayOf t ≤ b

/-- the result with all timestamps moved by `k` days; exceptions stay as they are -/
abbrev Spec.later (k : Int) (r : Py (Series (XF K))) : Py (Series (XF K)) := r.map (Series.shiftDays · k)

theorem monthOf_day (t : Time) : monthOf (at00 (dayOf t)) = monthOf t := by
  unfold monthOf; rw [dayOf_at00]

theorem month_moved {a b k : Int} (h : SameMonths a b k) {t : Time} (h1 : a ≤ dayOf t) (h2 : dayOf t ≤ b) : monthOf (t + k * DAY) = monthOf t := by
  rw [← monthOf_day t, ← h _ h1 h2, ← monthOf_day (t + k * DAY), dayOf_moved]

theorem doyOf_day (t : Time) : doyOf (at00 (dayOf t)) = doyOf t := by
  unfold doyOf yearOf; rw [dayOf_at00]

theorem doy_moved {a b k : Int} (h : SameDayOfYear a b k) {t : Time} (h1 : a ≤ dayOf t) (h2 : dayOf t ≤ b) : doyOf (t + k * DAY) = doyOf t := by
  rw [← doyOf_day t, ← h _ h1 h2, ← doyOf_day (t + k * DAY), dayOf_moved]

theorem within_hourlyIndex {api : PandasApi} {idx out : List Time} {b : Bool} {lo hi : Int} (hw : WithinDays idx lo hi) (h : hourlyIndex api idx b = .ok out) : WithinDays out lo hi := by
  unfold hourlyIndex at h
  cases hmin : idx.min? with
  | none => rw [hmin] at h; cases h
  | some x =>
    cases hmax : idx.max? with
    | none => rw [hmin, hmax] at h; cases h
    | some y =>
      rw [hmin, hmax] at h
      have hx := hw x (List.min?_eq_some_iff.1 hmin).1
      have hy := hw y (List.max?_eq_some_iff.1 hmax).1
      have hdr : WithinDays (dateRange x (replaceHour y 23) HOUR) lo hi := by
        intro t ht
        unfold dateRange at ht
        split at ht
        · simp at ht
        · obtain ⟨i, hi', rfl⟩ := List.mem_map.1 ht
          have := List.mem_range.1 hi'
          unfold replaceHour dayOf at *
          omega
      dsimp only at h
      split at h
      · unfold needs at h
        cases hf1 : api.indexToDatetime <;> cases hf2 : api.pdDatetime <;> simp [hf1, hf2, bind, Except.bind] at h
        rw [← h]
        intro t ht
        obtain ⟨u, hu, rfl⟩ := List.mem_map.1 ht
        have := hdr u (List.mem_filter.1 hu).1
        have e : dayOf (stamp (dayOf u) (hourOf u)) = dayOf u := by unfold stamp dayOf hourOf; omega
        rw [e]; exact this
      · injection h with h
        rw [← h]; exact hdr

/-! ## temperature -/

theorem sunMoved_any (sun : Series SunTimes) (k : Int) (p : SunTimes → Bool) : ((sun.shiftDays k).any fun r => p r.2) = sun.any fun r => p r.2 := by
  unfold Series.shiftDays; rw [List.any_map]; rfl

theorem moved_minMaxLoc {idx : List Time} {mmt : String} {md : Option (List (Int × XF ℝ))} {sun : Option (Series SunTimes)} {k : Int}
    (hm : mmt = "sun_loc_shift" → ∀ t ∈ idx, monthOf (t + k * DAY) = monthOf t) :
    minMaxLoc (idx.map (· + k * DAY)) mmt md (sun.map (Series.shiftDays · k)) = minMaxLoc idx mmt md sun := by
  unfold minMaxLoc
  by_cases h1 : mmt = "fix"
  · rw [if_pos h1, if_pos h1, List.map_map]; rfl
  rw [if_neg h1, if_neg h1]
  by_cases h2 : mmt = "sun_loc"
  · rw [if_pos h2, if_pos h2]
    cases sun with
    | none => rfl
    | some s =>
      simp only [Option.map_some, List.map_map]
      congr 1
      apply List.map_congr_left
      intro t _
      simp only [Function.comp_def, moved_at?]
  rw [if_neg h2, if_neg h2]
  by_cases h3 : mmt = "sun_loc_shift"
  · rw [if_pos h3, if_pos h3]
    cases sun with
    | none => rfl
    | some s =>
      cases md with
      | none => rfl
      | some md =>
        simp only [Option.map_some, moved_index, moved_values]
        rw [mapM_map_eq, mapM_congr_mem (g := shiftFor md) (fun t ht => by unfold shiftFor; rw [hm h3 t ht])]
        simp only [ne_eq, moved_index_eq]
  · rw [if_neg h3, if_neg h3, List.map_map]; rfl

theorem shiftDays_comm {V : Type} (s : Series V) (a b : Int) : (s.shiftDays a).shiftDays b = (s.shiftDays b).shiftDays a := by
  unfold Series.shiftDays
  rw [List.map_map, List.map_map]
  apply List.map_congr_left
  intro r _
  simp only [Function.comp_def]
  congr 1; omega

theorem shiftDays_of_map {A V : Type} (l : List A) (f : A → Time × V) (k : Int) :
    Series.shiftDays (l.map f) k = l.map fun a => ((f a).1 + k * DAY, (f a).2) := by
  unfold Series.shiftDays; rw [List.map_map]; rfl

theorem moved_locTable {daily : Frame ℝ} {mmt : String} {md : Option (List (Int × XF ℝ))} {sun : Option (Series SunTimes)} {k : Int}
    (hm : mmt = "sun_loc_shift" → ∀ t ∈ daily.index, monthOf (t + k * DAY) = monthOf t) :
    locTable (daily.moved k) mmt md (sun.map (Series.shiftDays · k)) = (locTable daily mmt md sun).map (Series.shiftDays · k) := by
  unfold locTable
  refine bind_moved (s := fun a => a) ((moved_minMaxLoc hm).trans (map_id_py _).symm) ?_
  intro locs _
  refine bind_moved (s := fun a => a) (map_id_py _).symm ?_
  intro minLoc _
  refine bind_moved (s := fun a => a) (map_id_py _).symm ?_
  intro maxLoc _
  refine bind_moved (moved_attr daily "tmin" k) ?_
  intro tmin _
  refine bind_moved (moved_attr daily "tmax" k) ?_
  intro tmax _
  refine bind_moved (moved_attr daily "temp" k) ?_
  intro temp _
  simp only [Except.map]
  congr 1
  have hl : (daily.moved k).index.length = daily.index.length := by simp [Frame.moved]
  rw [hl]
  have hz : (daily.moved k).index.zip (minLoc.zip maxLoc) = (daily.index.zip (minLoc.zip maxLoc)).map fun r => (r.1 + k * DAY, r.2) := by
    unfold Frame.moved; simp only; rw [List.zip_map_left]; rfl
  rw [hz, List.zipIdx_map, List.map_map]
  rw [shiftDays_of_map]
  apply List.map_congr_left
  intro r _
  simp only [Function.comp_def, Prod.map, id]
  rw [shiftDays_comm tmin k (-1), shiftDays_comm tmin k 1, shiftDays_comm tmax k (-1), shiftDays_comm tmax k 1]
  simp only [moved_at?]

theorem moved_sine {api : PandasApi} {daily : Frame ℝ} {index : List Time} {method mmt : String} {modNight : Bool} {md : Option (List (Int × XF ℝ))}
    {sun : Option (Series SunTimes)} {k : Int} (hm : mmt = "sun_loc_shift" → ∀ t ∈ daily.index, monthOf (t + k * DAY) = monthOf t) :
    sineTemperature api (daily.moved k) (index.map (· + k * DAY)) method mmt modNight md (sun.map (Series.shiftDays · k)) =
      later k (sineTemperature api daily index method mmt modNight md sun) := by
  unfold sineTemperature
  refine bind_moved (moved_locTable hm) ?_
  intro loc _
  simp only [moved_index, sorted_moved]
  split
  · simp only [later, Except.map, List.pairwise_map, gt_iff_lt, add_lt_add_iff_right]
  cases sun with
  | none => rfl
  | some sun =>
    simp only [Option.map_some]
    have hany := sunMoved_any sun k fun s => decide (XF.lt s.daylength (.fin 3))
    rw [hany]
    split
    · unfold polarBranch
      have hf : Series.index ((sun.shiftDays k).filter fun r => decide (XF.lt r.2.daylength (.fin 3))) =
          (Series.index (sun.filter fun r => decide (XF.lt r.2.daylength (.fin 3)))).map (· + k * DAY) := by
        rw [← moved_index]; unfold Series.shiftDays; rw [List.filter_map]; rfl
      rw [hf]
      refine bind_moved (moved_hourlyIndex api _ false k) ?_
      intro _ _
      simp only [moved_index, Frame.moved, ne_eq, moved_index_eq]
      split <;> rfl
    · simp only [later, Except.map]
      congr 1
      conv_rhs => unfold Series.shiftDays
      rw [List.map_map, List.map_map]
      apply List.map_congr_left
      intro t _
      simp only [Function.comp_def, moved_asof?, hourOf_moved]
      cases Series.asof? loc t <;> rfl

theorem zip_moved {A : Type} (idx : List Time) (l : List A) (k : Int) : (idx.map (· + k * DAY)).zip l = (idx.zip l).map fun r => (r.1 + k * DAY, r.2) := by
  rw [List.zip_map_left]; rfl

theorem moved_lookup {c : MeanCourse ℝ} {index : List Time} {k : Int} (hm : ∀ t ∈ index, monthOf (t + k * DAY) = monthOf t) :
    (index.map (· + k * DAY)).mapM (fun t => c.lookup (monthOf t) (hourOf t)) = (index.mapM fun t => c.lookup (monthOf t) (hourOf t)).map fun l => l := by
  rw [mapM_map_eq, map_id_py]
  apply mapM_congr_mem
  intro t ht
  rw [hm t ht, hourOf_moved]

theorem moved_reindexAttr (daily : Frame ℝ) (name : String) (index : List Time) (k : Int) :
    ((daily.moved k).attr name >>= fun s => s.reindexFfill (index.map (· + k * DAY)) (some 23)) = later k (daily.attr name >>= fun s => s.reindexFfill index (some 23)) :=
  bind_moved (moved_attr daily name k) fun s _ => moved_reindexFfill s index (some 23) k

theorem moved_courseMinMax {daily : Frame ℝ} {index : List Time} {course : Option (MeanCourse ℝ)} {k : Int}
    (hm : ∀ t ∈ index, monthOf (t + k * DAY) = monthOf t) :
    courseMinMax (daily.moved k) (index.map (· + k * DAY)) course = later k (courseMinMax daily index course) := by
  unfold courseMinMax
  cases course with
  | none => rfl
  | some c =>
    refine bind_moved (moved_lookup hm) ?_
    intro norm _
    refine bind_moved (moved_attr daily "tmin" k) fun s _ => ?_
    refine bind_moved (moved_reindexFfill s index (some 23) k) fun tmin _ => ?_
    refine bind_moved (moved_attr daily "tmax" k) fun s _ => ?_
    refine bind_moved (moved_reindexFfill s index (some 23) k) fun tmax _ => ?_
    simp only [moved_values, Except.map]
    congr 1
    rw [zip_moved]
    unfold Series.shiftDays
    rw [List.map_map, List.map_map]
    rfl

theorem moved_courseMean {daily : Frame ℝ} {index : List Time} {course : Option (MeanCourse ℝ)} {k : Int}
    (hm : ∀ t ∈ index, monthOf (t + k * DAY) = monthOf t) :
    courseMean (daily.moved k) (index.map (· + k * DAY)) course = later k (courseMean daily index course) := by
  unfold courseMean
  refine bind_moved (moved_attr daily "tmax" k) fun s _ => ?_
  refine bind_moved (moved_reindexFfill s index (some 23) k) fun tmax _ => ?_
  refine bind_moved (moved_attr daily "tmin" k) fun s _ => ?_
  refine bind_moved (moved_reindexFfill s index (some 23) k) fun tmin _ => ?_
  cases course with
  | none => rfl
  | some c =>
    refine bind_moved (moved_lookup hm) fun mc _ => ?_
    refine bind_moved (moved_attr daily "temp" k) fun s _ => ?_
    refine bind_moved (moved_reindexFfill s index (some 23) k) fun temp _ => ?_
    simp only [moved_values, Except.map]
    congr 1
    rw [zip_moved]
    unfold Series.shiftDays
    rw [List.map_map, List.map_map]
    rfl

/-- **C124 (temperature).** Any daily frame, sun times and options: with all timestamps `k` days later the call gives the
same values `k` days later, or the same exception.  Only 'sun_loc_shift' and the mean courses, which use tables by month,
need that the days fall into the same months. -/
theorem C124_temperature (api : PandasApi) (daily : Frame ℝ) (method mmt : String) (modNight : Bool) (md : Option (List (Int × XF ℝ)))
    (course : Option (MeanCourse ℝ)) (sun : Option (Series SunTimes)) (a b k : Int) (hw : WithinDays daily.index a b)
    (hm : mmt = "sun_loc_shift" ∨ method = "mean_course_min_max" ∨ method = "mean_course_mean" → SameMonths a b k) :
    disaggregateTemperature api (daily.moved k) method mmt modNight md course (sun.map (Series.shiftDays · k)) =
      later k (disaggregateTemperature api daily method mmt modNight md course sun) := by
  unfold disaggregateTemperature
  split
  · rfl
  refine bind_moved (moved_hourlyIndex api daily.index false k) fun index hidx => ?_
  have hin := within_hourlyIndex hw hidx
  split
  · exact moved_sine fun h t ht => month_moved (hm (Or.inl h)) (hw t ht).1 (hw t ht).2
  · split
    · next h => exact moved_courseMinMax fun t ht => month_moved (hm (Or.inr (Or.inl h))) (hin t ht).1 (hin t ht).2
    · next h0 h1 h2 =>
      have h3 : method = "mean_course_mean" := by
        push Not at h0; tauto
      exact moved_courseMean fun t ht => month_moved (hm (Or.inr (Or.inr h3))) (hin t ht).1 (hin t ht).2

end Melodist
