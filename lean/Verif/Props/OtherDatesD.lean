import Verif.Props.OtherDatesC
import Verif.Props.TemperatureC

/-!
# C124  The same values on other dates: precipitation, the 400-year cycle of the calendar, examples
-/
set_option linter.unusedSectionVars false

namespace Melodist
open Spec
variable {K : Type}

/-! ## cascade -/

theorem days_moved (idx : List Time) (k : Int) : (idx.map (· + k * DAY)).map dayOf = (idx.map dayOf).map (· + k) := by
  simp [Function.comp_def, dayOf_moved]

theorem replaceHMS_moved (hi k : Int) : replaceHMS (hi + k * DAY) 23 59 59 = replaceHMS hi 23 59 59 + k * DAY := by
  unfold replaceHMS dayOf; omega

theorem rebuilt_moved (kept : List Time) (k : Int) :
    (kept.map fun t => dayOf t * DAY + hourOf t * HOUR + minuteOf t * MINUTE + secondOf t * SECOND).map (· + k * DAY) =
      (kept.map (· + k * DAY)).map fun t => dayOf t * DAY + hourOf t * HOUR + minuteOf t * MINUTE + secondOf t * SECOND := by
  rw [List.map_map, List.map_map]
  apply List.map_congr_left
  intro t _
  have hs : secondOf (t + k * DAY) = secondOf t := by unfold secondOf; omega
  simp only [Function.comp_def, dayOf_moved, hourOf_moved, minuteOf_moved, hs]
  omega

theorem moved_subLevelIndex (api : PandasApi) (idx : List Time) (level : Nat) (fg : Bool) (k : Int) :
    subLevelIndex api (idx.map (· + k * DAY)) level fg = (subLevelIndex api idx level fg).map (List.map (· + k * DAY)) := by
  unfold subLevelIndex
  generalize (42187500 : Int) * 2 ^ (11 - level) = step
  rw [min?_moved, max?_moved]
  cases idx.min? with
  | none => rfl
  | some lo =>
    cases idx.max? with
    | none => rfl
    | some hi =>
      simp only [Option.map_some]
      rw [replaceHMS_moved, dateRange_moved, List.length_map, List.length_map]
      split
      · rw [List.filter_map]
        have e : ((fun t => ((idx.map (· + k * DAY)).map dayOf).contains (dayOf t)) ∘ (· + k * DAY)) = fun t => (idx.map dayOf).contains (dayOf t) := by
          funext t
          simp only [Function.comp_def, days_moved, dayOf_moved, contains_moved]
        rw [e]
        generalize (dateRange lo (replaceHMS hi 23 59 59) step).filter (fun t => (idx.map dayOf).contains (dayOf t)) = kept
        by_cases h : kept = []
        · simp only [h, List.map_nil, ne_eq, not_true_eq_false, if_false]; rfl
        · have h' : kept.map (· + k * DAY) ≠ [] := by simpa using h
          simp only [ne_eq, h, h', not_false_iff, if_true]
          unfold needs
          cases api.pdDatetime
          · rfl
          · show Except.ok _ = Except.map _ (Except.ok _)
            simp only [Except.map, rebuilt_moved]
      · rfl

theorem moved_resample5min [Field K] [LinearOrder K] (s : Series K) (k : Int) : resample5min (s.shiftDays k) = (resample5min s).shiftDays k := by
  unfold resample5min
  rw [moved_index, min?_moved, max?_moved]
  cases s.index.min? with
  | none => rfl
  | some a =>
    cases s.index.max? with
    | none => rfl
    | some b =>
      simp only [Option.map_some]
      have e : ∀ t : Int, (t + k * DAY) / (5 * MINUTE) = t / (5 * MINUTE) + k * 288 := by intro t; omega
      rw [shiftDays_of_map]
      have hn : ((b + k * DAY) / (5 * MINUTE) - (a + k * DAY) / (5 * MINUTE) + 1).toNat = (b / (5 * MINUTE) - a / (5 * MINUTE) + 1).toNat := by
        rw [e, e]; congr 1; omega
      rw [hn]
      apply List.map_congr_left
      intro i _
      have hq : (a + k * DAY) / (5 * MINUTE) + (i : Int) = a / (5 * MINUTE) + (i : Int) + k * 288 := by rw [e]; omega
      rw [hq]
      refine Prod.ext (by dsimp only; omega) ?_
      dsimp only
      congr 1
      unfold Series.shiftDays
      rw [List.filter_map, List.map_map]
      have : ((fun r : Time × K => r.1 / (5 * MINUTE) == a / (5 * MINUTE) + (i : Int) + k * 288) ∘ fun r : Time × K => (r.1 + k * DAY, r.2)) =
          fun r : Time × K => r.1 / (5 * MINUTE) == a / (5 * MINUTE) + (i : Int) := by
        funext r
        simp only [Function.comp_def, e]
        rw [Bool.eq_iff_iff, beq_iff_eq, beq_iff_eq]
        omega
      rw [this]; rfl

theorem moved_assemble [Field K] [LinearOrder K] (api : PandasApi) (idx : List Time) (hourly : Bool) (level : Nat) (vout : List K) (k : Int) :
    assembleSeries api (idx.map (· + k * DAY)) hourly level vout = (assembleSeries api idx hourly level vout).map fun r => (r.1, Series.shiftDays r.2 k) := by
  unfold assembleSeries
  cases hourly with
  | true =>
    simp only [if_true]
    refine bind_moved (moved_hourlyIndex api idx false k) fun index _ => ?_
    exact bind_moved (moved_make index _ k) fun s _ => rfl
  | false =>
    simp only [Bool.false_eq_true, if_false]
    refine bind_moved (moved_subLevelIndex api idx level false k) fun index _ => ?_
    refine bind_moved (moved_make index _ k) fun s _ => ?_
    simp only [Except.map, moved_resample5min]

theorem moved_restore (missing : List Time) (s : Series K) (k : Int) :
    restoreMissing (missing.map (· + k * DAY)) (s.shiftDays k) = (restoreMissing missing s).shiftDays k := by
  unfold restoreMissing
  rw [shiftDays_of_map, days_moved]
  unfold Series.shiftDays
  rw [List.map_map]
  apply List.map_congr_left
  intro r _
  simp only [Function.comp_def, dayOf_moved, contains_moved]

/-- **C124 (cascade).** Any daily series, statistics, random numbers and options: the same boxes on every level, the same values `k` days later. -/
theorem C124_cascade [Field K] [LinearOrder K] (api : PandasApi) (rnd : Nat → K) (daily : Series (XF K)) (opts : CascOptions K) (hourly : Bool) (level : Nat)
    (shift : Int) (test : Bool) (k : Int) :
    disaggPrecCascade api rnd (daily.shiftDays k) opts hourly level shift test =
      (disaggPrecCascade api rnd daily opts hourly level shift test).map fun r => { r with series := r.series.shiftDays k } := by
  unfold disaggPrecCascade
  rw [length_moved, moved_values, moved_index]
  split
  · rfl
  refine bind_moved (s := fun a => a) (map_id_py _).symm fun v _ => ?_
  have hmiss : ((daily.shiftDays k).filter fun r => r.2.isNan).map Prod.fst = ((daily.filter fun r => r.2.isNan).map Prod.fst).map (· + k * DAY) := by
    unfold Series.shiftDays; rw [List.filter_map, List.map_map, List.map_map]; rfl
  rw [hmiss]
  dsimp only
  generalize (if hourly = true then 5 else level) = si
  split
  · rfl
  refine bind_moved (s := fun a => a) (map_id_py _).symm fun _ _ => ?_
  refine bind_moved (s := fun a => a) (map_id_py _).symm fun levels _ => ?_
  refine bind_moved (moved_assemble api daily.index hourly level _ k) fun fs _ => ?_
  obtain ⟨fine, s⟩ := fs
  simp only [moved_restore, moved_shiftRows]
  split
  · rfl
  · simp only [Except.map]
    split <;> rfl

/-! ## master station -/

theorem foldlM_moved {A A' B : Type} {f : B → A → Py B} {f' : B → A' → Py B} {g : B → B} {h : A → A'} (hf : ∀ b a, f' (g b) (h a) = (f b a).map g) :
    ∀ (l : List A) (b : B), (l.map h).foldlM f' (g b) = (l.foldlM f b).map g := by
  intro l
  induction l with
  | nil => intro b; rfl
  | cons a l ih =>
    intro b
    rw [List.map_cons, List.foldlM_cons, List.foldlM_cons]
    exact bind_moved (hf b a) fun b' _ => ih b'

theorem all_moved {V : Type} (s : Series V) (k : Int) (p : Time × V → Bool) : (s.shiftDays k).all p = s.all fun r => p (r.1 + k * DAY, r.2) := by
  unfold Series.shiftDays; rw [List.all_map]; rfl

theorem filterDay_moved {V : Type} (s : Series V) (d k : Int) : (s.shiftDays k).filter (fun q => dayOf q.1 == d + k) = Series.shiftDays (s.filter fun q => dayOf q.1 == d) k := by
  unfold Series.shiftDays
  rw [List.filter_map]
  have : ((fun q : Time × V => dayOf q.1 == d + k) ∘ fun r : Time × V => (r.1 + k * DAY, r.2)) = fun q : Time × V => dayOf q.1 == d := by
    funext q
    simp only [Function.comp_def, dayOf_moved]
    rw [Bool.eq_iff_iff, beq_iff_eq, beq_iff_eq]; omega
  rw [this]

theorem moved_selectDate {V : Type} (s : Series V) (d k : Int) : selectDate (s.shiftDays k) (d + k) = (selectDate s d).map (Series.shiftDays · k) := by
  unfold selectDate
  have h1 : (s.shiftDays k).all (fun q => q.1 % DAY == 0) = s.all (fun q => q.1 % DAY == 0) := by
    rw [all_moved]; congr 1; funext r
    rw [Bool.eq_iff_iff, beq_iff_eq, beq_iff_eq]; omega
  have h2 : (s.shiftDays k).isEmpty = s.isEmpty := by unfold Series.shiftDays; cases s <;> rfl
  have h3 : ((s.shiftDays k).map Prod.fst).Pairwise (· ≤ ·) ↔ (s.map Prod.fst).Pairwise (· ≤ ·) := by
    unfold Series.shiftDays
    rw [List.map_map, List.pairwise_map, List.pairwise_map]
    constructor <;> intro h <;> refine h.imp ?_ <;> intro a b hab <;> simp only [Function.comp_def] at * <;> omega
  have h4 : ((s.shiftDays k).all fun q => decide (d + k < dayOf q.1)) = s.all fun q => decide (d < dayOf q.1) := by
    rw [all_moved]; congr 1; funext r; rw [dayOf_moved]; apply decide_eq_decide.2; omega
  have h5 : ((s.shiftDays k).all fun q => decide (dayOf q.1 < d + k)) = s.all fun q => decide (dayOf q.1 < d) := by
    rw [all_moved]; congr 1; funext r; rw [dayOf_moved]; apply decide_eq_decide.2; omega
  simp only [h1, h2, h3, h4, h5, filterDay_moved]
  split
  · split <;> rfl
  · split <;> rfl

theorem mapDay_moved {V : Type} (acc : Series V) (d k : Int) (g g' : Time × V → V) (hg : ∀ r : Time × V, g' (r.1 + k * DAY, r.2) = g r) :
    (acc.shiftDays k).map (fun r => if dayOf r.1 = d + k then (r.1, g' r) else r) = Series.shiftDays (acc.map fun r => if dayOf r.1 = d then (r.1, g r) else r) k := by
  rw [shiftDays_of_map]
  unfold Series.shiftDays
  rw [List.map_map]
  apply List.map_congr_left
  intro r _
  simp only [Function.comp_def, dayOf_moved, hg]
  by_cases h : dayOf r.1 = d
  · rw [if_pos h, if_pos (by omega)]
  · rw [if_neg h, if_neg (by omega)]

theorem moved_masterDay [Field K] [LinearOrder K] (zerodiv : String) (d : Int) (p : XF K) (m acc : Series (XF K)) (k : Int) :
    masterDay zerodiv (d + k) p (m.shiftDays k) (acc.shiftDays k) = later k (masterDay zerodiv d p m acc) := by
  unfold masterDay
  simp only [moved_values]
  have hrel : ((m.shiftDays k).map fun r => (r.1, r.2 / sumSkip m.values * p)) = Series.shiftDays (m.map fun r => (r.1, r.2 / sumSkip m.values * p)) k := by
    rw [shiftDays_of_map]; unfold Series.shiftDays; rw [List.map_map]; rfl
  rw [hrel, moved_index, filterDay_moved]
  have hi : (Series.shiftDays (acc.filter fun r => dayOf r.1 == d) k).map Prod.fst = ((acc.filter fun r => dayOf r.1 == d).map Prod.fst).map (· + k * DAY) := moved_index _ k
  rw [hi]
  simp only [moved_index_eq]
  by_cases h : ¬ XF.feq (sumSkip m.values) (.fin 0) ∧ ¬ XF.feq (sumSkip m.values) (if (sumSkip m.values).isNan then .fin 1 else .fin 0)
  · rw [if_pos h, if_pos h]
    by_cases h1 : Series.index (m.map fun r => (r.1, r.2 / sumSkip m.values * p)) = (acc.filter fun r => dayOf r.1 == d).map Prod.fst
    · rw [if_pos h1, if_pos h1]
      simp only [later, Except.map]
      congr 1
      exact mapDay_moved acc d k _ _ fun r => by simp only [moved_at?]
    · rw [if_neg h1, if_neg h1]; rfl
  · rw [if_neg h, if_neg h]
    split
    · simp only [later, Except.map]
      congr 1
      exact mapDay_moved acc d k (fun _ => .fin (1 / 24) * p) (fun _ => .fin (1 / 24) * p) fun _ => rfl
    · simp only [later, Except.map]
      congr 1
      exact mapDay_moved acc d k (fun _ => .fin 0) (fun _ => .fin 0) fun _ => rfl

/-- **C124 (master station).** Any daily series and any series of the master station. -/
theorem C124_master_station [Field K] [LinearOrder K] (api : PandasApi) (daily master : Series (XF K)) (zerodiv : String) (k : Int) :
    precipMasterStation api (daily.shiftDays k) (master.shiftDays k) zerodiv = later k (precipMasterStation api daily master zerodiv) := by
  unfold precipMasterStation
  rw [moved_index]
  refine bind_moved (moved_hourlyIndex api daily.index false k) fun index _ => ?_
  refine bind_moved (s := fun a => a) (map_id_py _).symm fun _ _ => ?_
  have h0 : (index.map (· + k * DAY)).map (fun t => (t, (XF.nan : XF K))) = Series.shiftDays (index.map fun t => (t, (XF.nan : XF K))) k := by
    rw [shiftDays_of_map, List.map_map]; rfl
  rw [h0]
  refine foldlM_moved (g := (Series.shiftDays · k)) ?_ daily _
  intro acc r
  simp only [dayOf_moved]
  refine bind_moved (moved_selectDate master (dayOf r.1) k) fun m _ => ?_
  exact moved_masterDay zerodiv (dayOf r.1) r.2 m acc k

/-- **C124 (equal shares of precipitation).** Consecutive days with any values. -/
theorem C124_equal [Field K] [LinearOrder K] (api : PandasApi) (d0 : Int) (n : Nat) (v : Nat → XF K) (divide : Bool) (k : Int) :
    distributeEqually api (dailyS (d0 + k) n v) divide = later k (distributeEqually api (dailyS d0 n v) divide) := by
  rw [← moved_daily]
  exact moved_distribute api d0 n v divide k

/-! ## the calendar repeats after 400 years -/

theorem civil_era (z m : Int) : civil (z + 146097 * m) = ((civil z).1 + 400 * m, (civil z).2) := by
  unfold civil
  have h1 : (z + 146097 * m + 719468) / 146097 = (z + 719468) / 146097 + m := by omega
  have h2 : (z + 146097 * m + 719468) % 146097 = (z + 719468) % 146097 := by omega
  simp only [h1, h2]
  refine Prod.ext ?_ rfl
  dsimp only
  split <;> omega

theorem jan1_era (y m : Int) : daysFromCivil (y + 400 * m) 1 1 = daysFromCivil y 1 1 + 146097 * m := by
  unfold daysFromCivil
  norm_num
  have h1 : (y + 400 * m - 1) / 400 = (y - 1) / 400 + m := by omega
  have h2 : (y + 400 * m - 1) % 400 = (y - 1) % 400 := by omega
  rw [h1, h2]
  omega

/-- **C124 (calendar).** All days may be moved by any multiple of 400 years: months and numbers within the year stay the same. -/
theorem C124_calendar (a b m : Int) : SameMonths a b (146097 * m) ∧ SameDayOfYear a b (146097 * m) := by
  constructor
  · intro d _ _
    unfold monthOf
    rw [dayOf_at00, dayOf_at00, civil_era]
  · intro d _ _
    unfold doyOf yearOf
    rw [dayOf_at00, dayOf_at00, civil_era, jan1_era]
    omega

/-! ## examples -/

theorem exWithinDays : WithinDays exFrame.index 0 1 := by
  intro t ht
  have : t = at00 0 ∨ t = at00 1 := by simpa [exFrame] using ht
  rcases this with rfl | rfl <;> rw [dayOf_at00] <;> decide

/-- the first two days of 1970 and of 1971 -/
theorem exYear : SameMonths 0 1 365 ∧ SameDayOfYear 0 1 365 := by
  constructor <;> intro d h1 h2 <;> (have : d = 0 ∨ d = 1 := by omega) <;> rcases this with rfl | rfl <;> decide

example : ∃ out : Series (XF ℝ), disaggregateTemperature .modern exFrame "sine_mean" "fix" false none none (some exSun) = .ok out ∧
    disaggregateTemperature .modern (exFrame.moved 1000) "sine_mean" "fix" false none none (some (exSun.shiftDays 1000)) = .ok (out.shiftDays 1000) := by
  obtain ⟨out, h⟩ := exOk (.inr (.inl rfl)) false
  refine ⟨out, h, ?_⟩
  have := C124_temperature .modern exFrame "sine_mean" "fix" false none none (some exSun) 0 1 1000 exWithinDays (fun h => absurd h (by decide))
  rw [h] at this
  exact this

/-- a mean course needs the same months: the values of 1 and 2 January 1970 on the same dates of 1971 -/
example : ∃ out : Series (XF ℝ), disaggregateTemperature .modern exFrame "mean_course_min_max" "fix" false none (some exCourse) none = .ok out ∧
    disaggregateTemperature .modern (exFrame.moved 365) "mean_course_min_max" "fix" false none (some exCourse) none = .ok (out.shiftDays 365) := by
  obtain ⟨out, h, _, _⟩ := C48_mean_course_min_max .modern exDays.index (by decide) exDays.hmin exDays.hmax "fix" false none none exCourse exCovers
  refine ⟨out, h, ?_⟩
  have := C124_temperature .modern exFrame "mean_course_min_max" "fix" false none (some exCourse) none 0 1 365 exWithinDays (fun _ => exYear.1)
  rw [h] at this
  exact this

example (lon lat tz : ℝ) : getSunTimes [at00 365, at00 366] lon lat tz = Series.shiftDays (getSunTimes [at00 0, at00 1] lon lat tz) 365 :=
  C124_sun_times [at00 0, at00 1] lon lat tz 0 1 365 (by
    intro t ht
    have : t = at00 0 ∨ t = at00 1 := by simpa using ht
    rcases this with rfl | rfl <;> rw [dayOf_at00] <;> decide) exYear.2

/-- two days of humidity, moved by 100 days -/
example : ∃ out : Series (XF ℝ), disaggregateHumidity .modern ⟨[at00 0, at00 1], [("hum", [.fin 80, .fin 60])]⟩ "equal" = .ok out ∧ out ≠ [] ∧
    disaggregateHumidity .modern ⟨[at00 100, at00 101], [("hum", [.fin 80, .fin 60])]⟩ "equal" = .ok (out.shiftDays 100) := by
  have hc : Spec.Covers (⟨[at00 0, at00 1], [("hum", [.fin 80, .fin 60])]⟩ : Frame ℝ).index 0 2 := rfl
  have hwf : (⟨[at00 0, at00 1], [("hum", [.fin 80, .fin 60])]⟩ : Frame ℝ).WF := by
    intro c hc; rw [List.mem_singleton.1 hc]; rfl
  have h := C124_humidity .modern (by decide) hwf hc "equal" none (fun _ h => by cases h) none none none none false 100 (fun h => absurd h (by decide))
  have hd : Frame.col? (⟨[at00 0, at00 1], [("hum", [.fin 80, .fin 60])]⟩ : Frame ℝ) "hum" = some (dailyS 0 2 fun i => if i = 0 then .fin 80 else .fin 60) := rfl
  have hr : humidityRaw .modern (⟨[at00 0, at00 1], [("hum", [.fin 80, .fin 60])]⟩ : Frame ℝ) "equal" none none none none none =
      .ok (hourlyS 0 2 fun i _ => if i = 0 then .fin 80 else .fin 60) := raw_equal _ _ _ _ _ _ _ _ _ (by decide) _ hd
  have hf := (hum_finish hr).1
  refine ⟨_, hf, by unfold hourlyS; simp, ?_⟩
  rw [hf] at h
  exact h

end Melodist
