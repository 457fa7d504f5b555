import Verif.Props.OtherDatesD
import Verif.Props.RowsOutB

/-!
# C127  Statistics fitted to the same observations on other dates
-/
set_option linter.unusedSectionVars false

namespace Melodist
open Spec
variable {K : Type}

section
variable {V : Type}

theorem moved_filter (s : Series V) (k : Int) {p q : Time → Bool} (h : ∀ r ∈ s, q (r.1 + k * DAY) = p r.1) :
    (s.shiftDays k).filter (fun r => q r.1) = Series.shiftDays (s.filter fun r => p r.1) k := by
  unfold Series.shiftDays
  rw [List.filter_map]
  congr 1
  apply List.filter_congr
  intro r hr
  exact h r hr

theorem moved_map {W : Type} (s : Series V) (k : Int) (g : Time × V → W) : (s.shiftDays k).map g = s.map fun r => g (r.1 + k * DAY, r.2) := by
  unfold Series.shiftDays; rw [List.map_map]; rfl

theorem moved_any (s : Series V) (k : Int) {p q : Time → Bool} (h : ∀ r ∈ s, q (r.1 + k * DAY) = p r.1) :
    (s.shiftDays k).any (fun r => q r.1) = s.any fun r => p r.1 := by
  unfold Series.shiftDays
  rw [List.any_map]
  rw [Bool.eq_iff_iff, List.any_eq_true, List.any_eq_true]
  constructor
  · rintro ⟨r, hr, e⟩; exact ⟨r, hr, by rw [← h r hr]; exact e⟩
  · rintro ⟨r, hr, e⟩; exact ⟨r, hr, by simp only [Function.comp_def]; rw [h r hr]; exact e⟩

end

theorem rows_month {s : Series (XF K)} {a b k : Int} (hw : WithinDays s.index a b) (hm : SameMonths a b k) : ∀ r ∈ s, monthOf (r.1 + k * DAY) = monthOf r.1 :=
  fun r hr => month_moved hm (hw r.1 (List.mem_map_of_mem hr)).1 (hw r.1 (List.mem_map_of_mem hr)).2

section
variable [Field K] [LinearOrder K] [IsStrictOrderedRing K]

/-- **C127 (mean courses).** The same values `k` days later have the same mean daily courses, if every day keeps its month. -/
theorem C127_mean_course (s : Series (XF K)) (normalize : Bool) (a b k : Int) (hw : WithinDays s.index a b) (hm : SameMonths a b k) :
    meanDailyCourseByMonth (s.shiftDays k) normalize = meanDailyCourseByMonth s normalize := by
  have hr := rows_month hw hm
  have h1 : ∀ m : Int, ((s.shiftDays k).any fun r => monthOf r.1 == m) = s.any fun r => monthOf r.1 == m := fun m =>
    moved_any s k (p := fun t => monthOf t == m) (q := fun t => monthOf t == m) fun r h => by rw [hr r h]
  have h2 : ∀ m : Int, ((s.shiftDays k).any fun r => hourOf r.1 == m) = s.any fun r => hourOf r.1 == m := fun m =>
    moved_any s k (p := fun t => hourOf t == m) (q := fun t => hourOf t == m) fun r h => by rw [hourOf_moved]
  have h3 : ∀ m h : Int, ((s.shiftDays k).filter fun r => monthOf r.1 == m && hourOf r.1 == h).map Prod.snd = (s.filter fun r => monthOf r.1 == m && hourOf r.1 == h).map Prod.snd := by
    intro m h
    rw [moved_filter s k (p := fun t => monthOf t == m && hourOf t == h) (q := fun t => monthOf t == m && hourOf t == h) fun r hh => by rw [hourOf_moved, hr r hh]]
    exact moved_values _ k
  unfold meanDailyCourseByMonth
  simp only [h1, h2, h3]

end

/-- **C127 (wind).** The fit of the wind cosine gets the same rows whatever the dates are. -/
theorem C127_wind (optimise : List (ℝ × Int × ℝ) → Py (ℝ × ℝ × ℝ)) (s : Series (XF ℝ)) (k : Int) :
    fitCosineFunction optimise (s.shiftDays k) = fitCosineFunction optimise s := by
  unfold fitCosineFunction
  congr 1
  rw [fitRows_eq, fitRows_eq]
  have e : (observed (s.shiftDays k)).map (windRow (s.shiftDays k)) = (observed s).map (windRow s) := by
    unfold observed
    rw [show (s.shiftDays k).filter (fun r => !r.2.isNan) = Series.shiftDays (s.filter fun r => !r.2.isNan) k by
      unfold Series.shiftDays; rw [List.filter_map]; rfl]
    rw [moved_map]
    apply List.map_congr_left
    intro r _
    simp only [windRow, dayOf_moved, hourOf_moved, moved_onDay]
  rw [e]

section
variable [Field K] [LinearOrder K] [IsStrictOrderedRing K]

/-- **C127 (humidity means).** The humidity means by month, hour and wet or dry day are the same, if every day keeps its month. -/
theorem C127_month_hour_precip (f : Frame K) (hwf : f.WF) (a b k : Int) (hw : WithinDays f.index a b) (hm : SameMonths a b k) :
    monthHourPrecipMean (f.moved k) = monthHourPrecipMean f := by
  have hix : ∀ {n : String} {s : Series (XF K)}, f.col? n = some s → s.index = f.index := by
    intro n s hs
    unfold Frame.col? at hs
    obtain ⟨c, hc1, rfl⟩ := Option.map_eq_some_iff.1 hs
    exact List.map_fst_zip (hwf c (List.mem_of_find?_eq_some hc1)).symm.le
  cases hp : f.col? "precip" with
  | none => unfold monthHourPrecipMean; rw [attr_missing hp, attr_missing (by rw [moved_col?, hp]; rfl)]; rfl
  | some p =>
    have hp' : (f.moved k).col? "precip" = some (p.shiftDays k) := by rw [moved_col?, hp]; rfl
    cases hh : f.col? "hum" with
    | none => unfold monthHourPrecipMean; rw [attr_ok hp, attr_ok hp', attr_missing hh, attr_missing (by rw [moved_col?, hh]; rfl)]; rfl
    | some u =>
      have hh' : (f.moved k).col? "hum" = some (u.shiftDays k) := by rw [moved_col?, hh]; rfl
      have hi : u.index = p.index := by rw [hix hh, hix hp]
      have hi' : Series.index (u.shiftDays k) = Series.index (p.shiftDays k) := by rw [moved_index, moved_index, hi]
      have hwu : WithinDays u.index a b := by rw [hix hh]; exact hw
      have hkey : ∀ r ∈ u, mhpKey (p.shiftDays k) (r.1 + k * DAY) = mhpKey p r.1 := by
        intro r hr
        unfold mhpKey
        rw [rows_month hwu hm r hr, hourOf_moved, dayOf_moved, moved_onDay]
      rw [mhp_eq hp hh hi, mhp_eq hp' hh' hi']
      have e1 : (u.shiftDays k).map (fun r => mhpKey (p.shiftDays k) r.1) = u.map fun r => mhpKey p r.1 := by
        unfold Series.shiftDays
        rw [List.map_map]
        exact List.map_congr_left hkey
      rw [e1]
      congr 1
      apply List.map_congr_left
      intro key _
      rw [moved_filter u k (p := fun t => mhpKey p t == key) (q := fun t => mhpKey (p.shiftDays k) t == key) fun r hr => by rw [hkey r hr]]
      rw [show (Series.shiftDays (u.filter fun r => mhpKey p r.1 == key) k).map Prod.snd = (u.filter fun r => mhpKey p r.1 == key).map Prod.snd from
        moved_values _ k]

end

theorem moved_item (f : Frame K) (name : String) (k : Int) : (f.moved k).item name = (f.item name).map (Series.shiftDays · k) := by
  unfold Frame.item
  rw [moved_col?]
  cases f.col? name <;> rfl

theorem moved_groupbyDate {V W : Type} (agg : List V → W) (s : Series V) (k : Int) : (s.shiftDays k).groupbyDate agg = (s.groupbyDate agg).shiftDays k := by
  unfold Series.groupbyDate
  rw [moved_index, moved_daySpan, List.filter_map, List.map_map]
  unfold Series.shiftDays
  rw [List.map_map]
  have : ((fun d => (s.map fun r => (r.1 + k * DAY, r.2)).any fun r => dayOf r.1 == d) ∘ fun x => x + k) = fun d => s.any fun r => dayOf r.1 == d := by
    funext d
    simp only [Function.comp_def, List.any_map, dayOf_moved]
    congr 1
    funext r
    rw [Bool.eq_iff_iff]; simp
  rw [this]
  apply List.map_congr_left
  intro d _
  simp only [Function.comp_def]
  rw [midnight_moved]
  have := moved_onDay s k d
  unfold Series.shiftDays at this
  rw [this]

/-- **C127 (dew point regression).** The dew point regression is the same whatever the dates are. -/
theorem C127_dewpoint (f : Frame ℝ) (k : Int) : dewpointRegression (f.moved k) = dewpointRegression f := by
  unfold dewpointRegression
  rw [moved_item, moved_item]
  cases ht : f.item "temp" with
  | error e => rfl
  | ok temp =>
    cases hh : f.item "hum" with
    | error e => rfl
    | ok hum =>
      show (do
        let td ← dewpointTemperature (temp.shiftDays k).values (hum.shiftDays k).values
        _) = (do
        let td ← dewpointTemperature temp.values hum.values
        _)
      rw [moved_values, moved_values]
      congr 1
      funext td
      have e1 : (temp.shiftDays k).index.zip td = Series.shiftDays (temp.index.zip td) k := by
        rw [moved_index, zip_moved]; rfl
      dsimp only
      rw [e1, moved_resampleD, moved_groupbyDate]
      congr 2
      congr 1
      rw [moved_map]
      apply List.map_congr_left
      intro r _
      dsimp only
      rw [moved_at?]

/-- **C127 (shift of the maximum).** The shift of the temperature maximum is the same, if every day keeps its month and its number in the year (the sun times depend on that number). -/
theorem C127_shift (temp : Series (XF ℝ)) (lon lat tz : ℝ) (a b k : Int) (hw : WithinDays temp.index a b) (hm : SameMonths a b k) (hd : SameDayOfYear a b k) :
    getShiftByData (temp.shiftDays k) lon lat tz = getShiftByData temp lon lat tz := by
  have hin : ∀ d ∈ Series.daySpan temp.index, a ≤ d ∧ d ≤ b := by
    intro d hd
    unfold Series.daySpan at hd
    split at hd
    · next u v hu hv =>
      obtain ⟨ta, hta, ea⟩ := List.mem_map.1 (List.min?_mem hu)
      obtain ⟨tb, htb, eb⟩ := List.mem_map.1 (List.max?_mem hv)
      have h1 := hw ta hta
      have h2 := hw tb htb
      obtain ⟨i, hi, rfl⟩ := List.mem_map.1 hd
      have hi := List.mem_range.1 hi
      omega
    · cases hd
  have hmon : ∀ d ∈ Series.daySpan temp.index, monthOf (midnight (d + k)) = monthOf (midnight d) := fun d h => hm d (hin d h).1 (hin d h).2
  have hfirst : ∀ d, firstMaxHour (temp.shiftDays k) (d + k) = firstMaxHour temp d := by
    intro d
    unfold firstMaxHour
    dsimp only
    have e : (temp.shiftDays k).filter (fun r => dayOf r.1 == d + k) = Series.shiftDays (temp.filter fun r => dayOf r.1 == d) k :=
      moved_filter temp k (p := fun t => dayOf t == d) (q := fun t => dayOf t == d + k) fun r _ => by
        rw [dayOf_moved, Bool.eq_iff_iff]; simp
    rw [e, moved_values]
    unfold Series.shiftDays
    rw [List.find?_map, Option.map_map]
    congr 1
    funext r
    exact hourOf_moved _ _
  have hdelta : ∀ d ∈ Series.daySpan temp.index, dayDelta (temp.shiftDays k) lon lat tz (d + k) = dayDelta temp lon lat tz d := by
    intro d h
    unfold dayDelta
    rw [hfirst, show doyOf (midnight (d + k)) = doyOf (midnight d) from hd d (hin d h).1 (hin d h).2]
  rw [shift_eq, shift_eq, moved_index, moved_daySpan]
  have e1 : ∀ m : Int, (((Series.daySpan temp.index).map (· + k)).any fun d => monthOf (midnight d) == m) = (Series.daySpan temp.index).any fun d => monthOf (midnight d) == m := by
    intro m
    rw [List.any_map, Bool.eq_iff_iff, List.any_eq_true, List.any_eq_true]
    constructor
    · rintro ⟨d, h, e⟩; exact ⟨d, h, by rw [← hmon d h]; exact e⟩
    · rintro ⟨d, h, e⟩; exact ⟨d, h, by simp only [Function.comp_def]; rw [hmon d h]; exact e⟩
  have e2 : ∀ m : Int, (((Series.daySpan temp.index).map (· + k)).filter fun d => monthOf (midnight d) == m).map (dayDelta (temp.shiftDays k) lon lat tz) =
      ((Series.daySpan temp.index).filter fun d => monthOf (midnight d) == m).map (dayDelta temp lon lat tz) := by
    intro m
    rw [List.filter_map, List.map_map]
    rw [show (Series.daySpan temp.index).filter ((fun d => monthOf (midnight d) == m) ∘ fun x => x + k) = (Series.daySpan temp.index).filter fun d => monthOf (midnight d) == m from
      List.filter_congr fun d h => by simp only [Function.comp_def]; rw [hmon d h]]
    apply List.map_congr_left
    intro d h
    exact hdelta d (List.mem_filter.1 h).1
  simp only [e1, e2]

end Melodist
