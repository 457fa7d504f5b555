import Verif.Lemmas.TemperatureCourse
import Verif.Props.TemperatureB
import Verif.Props.MeanCourse
import Verif.Lemmas.Calendar

/-!
# C48-C52: temperature from mean courses, polar night, options
-/

set_option linter.unusedSectionVars false

namespace Melodist
open Spec

noncomputable section

variable {daily : Frame ℝ} {d0 : Int} {n : Nat} {tmin tmax temp : Nat → XF ℝ}

/-- the course has an entry for every hour of the day and for the months of all days -/
structure Covers (c : MeanCourse ℝ) (d0 : Int) (n : Nat) : Prop where
  months : ∀ i : Nat, i < n → monthOf (at00 (d0 + i)) ∈ c.months
  hours : ∀ h : Nat, h < 24 → (h : Int) ∈ c.hours

/-- the entries of month `m` are numbers between 0 and 1, and 0 and 1 occur -/
structure Normalized (c : MeanCourse ℝ) (m : Int) : Prop where
  range : ∀ h : Nat, h < 24 → ∃ y, c.val m h = .fin y ∧ 0 ≤ y ∧ y ≤ 1
  zero : ∃ h : Nat, h < 24 ∧ c.val m h = .fin 0
  one : ∃ h : Nat, h < 24 ∧ c.val m h = .fin 1

/-- a function that takes the numbers of a month -/
theorem normalized_fun {c : MeanCourse ℝ} {m : Int} (h : Normalized c m) :
    ∃ f : Nat → ℝ, (∀ k < 24, c.val m (k : Nat) = .fin (f k)) ∧ (∀ k < 24, 0 ≤ f k ∧ f k ≤ 1) ∧ (∃ k < 24, f k = 0) ∧ ∃ k < 24, f k = 1 := by
  refine ⟨fun k => if hk : k < 24 then Classical.choose (h.range k hk) else 0, ?_, ?_, ?_, ?_⟩
  · intro k hk
    simp only [dif_pos hk]
    exact (Classical.choose_spec (h.range k hk)).1
  · intro k hk
    simp only [dif_pos hk]
    exact (Classical.choose_spec (h.range k hk)).2
  · obtain ⟨k, hk, e⟩ := h.zero
    refine ⟨k, hk, ?_⟩
    simp only [dif_pos hk]
    have := (Classical.choose_spec (h.range k hk)).1
    exact (XF.fin.inj (e.symm.trans this)).symm
  · obtain ⟨k, hk, e⟩ := h.one
    refine ⟨k, hk, ?_⟩
    simp only [dif_pos hk]
    have := (Classical.choose_spec (h.range k hk)).1
    exact (XF.fin.inj (e.symm.trans this)).symm

/-- **C48.**  'mean_course_min_max' with a course that covers the days: the call succeeds, the output covers the days, and on every day with
tmin ≤ tmax in whose month the course is normalised, the smallest and the largest of the 24 values are exactly tmin and tmax. -/
theorem C48_mean_course_min_max (api : PandasApi) (hi : daily.index = (List.range n).map fun i : Nat => at00 (d0 + i)) (hn : 0 < n)
    (hmin : daily.col? "tmin" = some (dailyS d0 n tmin)) (hmax : daily.col? "tmax" = some (dailyS d0 n tmax)) (mmt : String) (modNight : Bool)
    (md : Option (List (Int × XF ℝ))) (sun : Option (Series SunTimes)) (c : MeanCourse ℝ) (hc : Covers c d0 n) :
    ∃ out, disaggregateTemperature api daily "mean_course_min_max" mmt modNight md (some c) sun = .ok out ∧
      out.index = Series.index (hourlyS d0 n fun _ _ => ()) ∧
      ∀ i < n, ∀ a b : ℝ, tmin i = .fin a → tmax i = .fin b → a ≤ b → Normalized c (monthOf (at00 (d0 + i))) →
        MinIs (dayCells out (d0 + i)) a ∧ MaxIs (dayCells out (d0 + i)) b := by
  refine ⟨_, courseMinMax_eq api hi hn hmin hmax mmt modNight md sun hc.months hc.hours, hourlyS_index_congr _ _ _ _, ?_⟩
  intro i hin a b ha hb hab hnorm
  obtain ⟨f, f1, f2, ⟨k0, hk0, e0⟩, k1, hk1, e1⟩ := normalized_fun hnorm
  rw [dayCells_hourlyS d0 _ hin]
  have e : (day24 fun h : Nat => c.val (monthOf (at00 (d0 + (i : Nat)))) (h : Nat) * (tmax i - tmin i) + tmin i) =
      (day24 fun h : Nat => f h * (b - a) + a).map XF.fin := by
    rw [day24_map]
    apply day24_congr
    intro h hh
    rw [f1 h hh, ha, hb, XF.fin_sub_fin, XF.fin_mul_fin, XF.fin_add_fin]
  rw [e]
  refine ⟨⟨_, rfl, mem_day24.2 ⟨k0, hk0, by rw [e0]; ring⟩, ?_⟩, ⟨_, rfl, mem_day24.2 ⟨k1, hk1, by rw [e1]; ring⟩, ?_⟩⟩
  · intro y hy
    obtain ⟨h, hh, rfl⟩ := mem_day24.1 hy
    have := f2 h hh
    nlinarith [mul_nonneg this.1 (sub_nonneg.2 hab)]
  · intro y hy
    obtain ⟨h, hh, rfl⟩ := mem_day24.1 hy
    have := f2 h hh
    nlinarith [mul_nonneg (sub_nonneg.2 this.2) (sub_nonneg.2 hab)]

/-- the hourly means of month `m` in the observations `s` exist for all 24 hours and are not all equal -/
def Variable24 (s : Series (XF ℝ)) (m : Int) : Prop :=
  (∀ h : Nat, h < 24 → ∃ x, (meanDailyCourseByMonth s).val m h = .fin x) ∧
  ∃ h₁ h₂ : Nat, h₁ < 24 ∧ h₂ < 24 ∧ (meanDailyCourseByMonth s).val m h₁ ≠ (meanDailyCourseByMonth s).val m h₂

theorem val_hour_mem {s : Series (XF ℝ)} {m : Int} {h : Nat} (hh : h < 24) {x : ℝ} (hx : (meanDailyCourseByMonth s).val m h = .fin x) :
    (h : Int) ∈ (meanDailyCourseByMonth s).hours := by
  unfold meanDailyCourseByMonth at hx ⊢
  simp only [Bool.false_eq_true, if_false] at hx ⊢
  rw [List.mem_filter]
  refine ⟨List.mem_map.2 ⟨h, List.mem_range.2 hh, rfl⟩, ?_⟩
  rw [List.any_eq_true]
  by_contra hne
  rw [List.filter_eq_nil_iff.2] at hx
  · cases hx
  · intro r hr he
    simp only [Bool.and_eq_true] at he
    exact hne ⟨r, hr, he.2⟩

theorem hours_lt {s : Series (XF ℝ)} {h : Int} (hh : h ∈ (meanDailyCourseByMonth s).hours) : ∃ k : Nat, k < 24 ∧ h = k := by
  unfold meanDailyCourseByMonth at hh
  simp only [Bool.false_eq_true, if_false] at hh
  obtain ⟨k, hk, rfl⟩ := List.mem_map.1 (List.mem_filter.1 hh).1
  exact ⟨k, List.mem_range.1 hk, rfl⟩

/-- a course fitted with `normalize=True` is normalised in every month with a variable daily course -/
theorem fitted_normalized {s : Series (XF ℝ)} (hs : ∀ r ∈ s, r.2.NanOrFin) {m : Int} (hv : Variable24 s m) :
    Normalized (meanDailyCourseByMonth s true) m := by
  obtain ⟨h24, h₁, h₂, l1, l2, hne⟩ := hv
  obtain ⟨x₁, e1⟩ := h24 h₁ l1
  obtain ⟨x₂, e2⟩ := h24 h₂ l2
  obtain ⟨c1, c2, c3, _⟩ := (C14_mean_course_normalized s hs m).1 ⟨h₁, val_hour_mem l1 e1, h₂, val_hour_mem l2 e2, x₁, x₂, e1, e2, by
    intro h; apply hne; rw [e1, e2, h]⟩
  refine ⟨?_, ?_, ?_⟩
  · intro h hh
    obtain ⟨x, e⟩ := h24 h hh
    rcases c1 h (val_hour_mem hh e) with ⟨e', _⟩ | h
    · rw [e'] at e; cases e
    · exact h
  · obtain ⟨h, hm, e⟩ := c2
    obtain ⟨k, hk, rfl⟩ := hours_lt hm
    exact ⟨k, hk, e⟩
  · obtain ⟨h, hm, e⟩ := c3
    obtain ⟨k, hk, rfl⟩ := hours_lt hm
    exact ⟨k, hk, e⟩

/-- **C48 (fitted course).**  The same with the course that `calculate_mean_daily_course_by_month(obs, normalize=True)` fits to any hourly
observations that have a number for every hour of the day in the months of the daily series: extremes are preserved on every day in whose month
the 24 observed hourly means are not all equal. -/
theorem C48_fitted (api : PandasApi) (hi : daily.index = (List.range n).map fun i : Nat => at00 (d0 + i)) (hn : 0 < n)
    (hmin : daily.col? "tmin" = some (dailyS d0 n tmin)) (hmax : daily.col? "tmax" = some (dailyS d0 n tmax)) (mmt : String) (modNight : Bool)
    (md : Option (List (Int × XF ℝ))) (sun : Option (Series SunTimes)) (obs : Series (XF ℝ)) (hobs : ∀ r ∈ obs, r.2.NanOrFin)
    (hcov : ∀ i : Nat, i < n → ∀ h : Nat, h < 24 → ∃ r ∈ obs, monthOf r.1 = monthOf (at00 (d0 + i)) ∧ r.1 % 86400000000 / 3600000000 = h) :
    ∃ out, disaggregateTemperature api daily "mean_course_min_max" mmt modNight md (some (meanDailyCourseByMonth obs true)) sun = .ok out ∧
      ∀ i < n, ∀ a b : ℝ, tmin i = .fin a → tmax i = .fin b → a ≤ b → Variable24 obs (monthOf (at00 (d0 + i))) →
        MinIs (dayCells out (d0 + i)) a ∧ MaxIs (dayCells out (d0 + i)) b := by
  have hC := C14_mean_course obs hobs
  have e1 : (meanDailyCourseByMonth obs true).months = (meanDailyCourseByMonth obs).months := by simp [meanDailyCourseByMonth]
  have e2 : (meanDailyCourseByMonth obs true).hours = (meanDailyCourseByMonth obs).hours := by simp [meanDailyCourseByMonth]
  have hc : Covers (meanDailyCourseByMonth obs true) d0 n := by
    constructor
    · intro i hin
      rw [e1, hC.2.1]
      obtain ⟨r, hr, h1, _⟩ := hcov i hin 0 (by decide)
      refine ⟨?_, r, hr, h1⟩
      exact monthOf_range _
    · intro h hh
      rw [e2, hC.1]
      obtain ⟨r, hr, _, h2⟩ := hcov 0 hn h hh
      exact ⟨r, hr, h2⟩
  obtain ⟨out, h1, _, h2⟩ := C48_mean_course_min_max api hi hn hmin hmax mmt modNight md sun _ hc
  refine ⟨out, h1, ?_⟩
  intro i hin a b ha hb hab hv
  exact h2 i hin a b ha hb hab (fitted_normalized hobs hv)

/-- **C49.**  'mean_course_mean' with a course with exactly the hours 0..23 that covers the days and whose entries are numbers: the call
succeeds, and on every day the mean of the 24 values is exactly the daily mean; if the course is normalised in the month of the day and
tmin ≤ tmax, the difference between the largest and the smallest value is exactly tmax - tmin. -/
theorem C49_mean_course_mean (api : PandasApi) (hd : TempDays daily d0 n tmin tmax temp) (hn : 0 < n) (mmt : String) (modNight : Bool)
    (md : Option (List (Int × XF ℝ))) (sun : Option (Series SunTimes)) (c : MeanCourse ℝ)
    (hm : ∀ i : Nat, i < n → monthOf (at00 (d0 + i)) ∈ c.months) (hh : c.hours = (List.range 24).map fun k : Nat => (k : Int))
    (hv : ∀ i : Nat, i < n → ∀ h : Nat, h < 24 → ∃ y, c.val (monthOf (at00 (d0 + i))) h = .fin y) :
    ∃ out, disaggregateTemperature api daily "mean_course_mean" mmt modNight md (some c) sun = .ok out ∧
      out.index = Series.index (hourlyS d0 n fun _ _ => ()) ∧
      ∀ i < n, ∀ a b t : ℝ, tmin i = .fin a → tmax i = .fin b → temp i = .fin t →
        MeanIs (dayCells out (d0 + i)) t ∧
        (Normalized c (monthOf (at00 (d0 + i))) → a ≤ b →
          ∃ lo, MinIs (dayCells out (d0 + i)) lo ∧ MaxIs (dayCells out (d0 + i)) (lo + (b - a))) := by
  have hh' : ∀ h : Nat, h < 24 → (h : Int) ∈ c.hours := by
    intro h hl
    rw [hh]
    exact List.mem_map.2 ⟨h, List.mem_range.2 hl, rfl⟩
  refine ⟨_, courseMean_eq api hd hn mmt modNight md sun hm hh', hourlyS_index_congr _ _ _ _, ?_⟩
  intro i hin a b t ha hb ht
  rw [dayCells_hourlyS d0 _ hin]
  have hf : ∃ f : Nat → ℝ, ∀ k : Nat, k < 24 → c.val (monthOf (at00 (d0 + i))) k = .fin (f k) := by
    refine ⟨fun k => if hk : k < 24 then Classical.choose (hv i hin k hk) else 0, ?_⟩
    intro k hk
    simp only [dif_pos hk]
    exact Classical.choose_spec (hv i hin k hk)
  obtain ⟨f, hf⟩ := hf
  have hcol : c.column (monthOf (at00 (d0 + i))) = (day24 f).map XF.fin := by
    unfold MeanCourse.column
    rw [hh, List.map_map, day24_map]
    apply List.map_congr_left
    intro k hk
    exact hf k (List.mem_range.1 hk)
  have hmean : meanSkip (c.column (monthOf (at00 (d0 + i)))) = .fin ((day24 f).sum / 24) := by
    rw [hcol, meanSkip_eq (nanOrFin_map_fin _), numbers_map_fin, day24_length]
    · norm_num
    · rw [numbers_map_fin]; simp [day24]
  have e : (day24 fun h : Nat => temp i + (tmax i - tmin i) *
        (c.val (monthOf (at00 (d0 + (i : Nat)))) (h : Nat) - meanSkip (c.column (monthOf (at00 (d0 + (i : Nat))))))) =
      (day24 fun h : Nat => t + (b - a) * (f h + -((day24 f).sum / 24))).map XF.fin := by
    rw [day24_map]
    apply day24_congr
    intro h hl
    rw [hmean, hf h hl, ha, hb, ht, XF.fin_sub_fin, XF.fin_sub_fin, XF.fin_mul_fin, XF.fin_add_fin, sub_eq_add_neg (f h)]
  rw [e]
  refine ⟨⟨_, rfl, by simp [day24], ?_⟩, ?_⟩
  · rw [sum_day24_add, sum_day24_mul, sum_day24_add, sum_day24_const, sum_day24_const, day24_length]
    push_cast
    ring
  · intro hnorm hab
    obtain ⟨k0, hk0, e0⟩ := hnorm.zero
    obtain ⟨k1, hk1, e1⟩ := hnorm.one
    rw [hf k0 hk0] at e0
    rw [hf k1 hk1] at e1
    have e0 := XF.fin.inj e0
    have e1 := XF.fin.inj e1
    have hr : ∀ k < 24, 0 ≤ f k ∧ f k ≤ 1 := by
      intro k hk
      obtain ⟨y, hy, h⟩ := hnorm.range k hk
      rw [hf k hk] at hy
      cases hy; exact h
    refine ⟨t + (b - a) * (0 + -((day24 f).sum / 24)), ⟨_, rfl, mem_day24.2 ⟨k0, hk0, by rw [e0]⟩, ?_⟩,
      ⟨_, rfl, mem_day24.2 ⟨k1, hk1, by rw [e1]; ring⟩, ?_⟩⟩
    · intro y hy
      obtain ⟨h, hl, rfl⟩ := mem_day24.1 hy
      have := hr h hl
      nlinarith [mul_nonneg this.1 (sub_nonneg.2 hab)]
    · intro y hy
      obtain ⟨h, hl, rfl⟩ := mem_day24.1 hy
      have := hr h hl
      nlinarith [mul_nonneg (sub_nonneg.2 this.2) (sub_nonneg.2 hab)]

theorem nan_iff_of_nanOrFin {x y z : XF ℝ} (hx : ∃ r, x = .fin r) (hy : y.NanOrFin) (hz : z.NanOrFin) :
    (x * (y - z) + z).NanOrFin ∧ (x * (y - z) + z = .nan ↔ y = .nan ∨ z = .nan) := by
  obtain ⟨r, rfl⟩ := hx
  cases y <;> cases z <;> first
    | exact hy.elim
    | exact hz.elim
    | (constructor
       · simp only [XF.nan_sub, XF.sub_nan, XF.mul_nan, XF.nan_add, XF.add_nan, XF.fin_sub_fin, XF.fin_mul_fin, XF.fin_add_fin]; trivial
       · simp)

/-- **C50 (mean courses).**  With a course whose entries are numbers, the mean course methods give missing values exactly on the days with a
missing value: tmin or tmax for 'mean_course_min_max', one of tmin, tmax, temp for 'mean_course_mean'; all 24 hours of such a day are missing, and
no hour of any other day. -/
theorem C50_missing_course (api : PandasApi) (hd : TempDays daily d0 n tmin tmax temp) (hn : 0 < n) (method mmt : String)
    (hm : method = "mean_course_min_max" ∨ method = "mean_course_mean") (modNight : Bool)
    (md : Option (List (Int × XF ℝ))) (sun : Option (Series SunTimes)) (c : MeanCourse ℝ)
    (hmon : ∀ i : Nat, i < n → monthOf (at00 (d0 + i)) ∈ c.months) (hh : c.hours = (List.range 24).map fun k : Nat => (k : Int))
    (hv : ∀ i : Nat, i < n → ∀ h : Nat, h < 24 → ∃ y, c.val (monthOf (at00 (d0 + i))) h = .fin y)
    (hf1 : ∀ i < n, (tmin i).NanOrFin) (hf2 : ∀ i < n, (tmax i).NanOrFin) (hf3 : ∀ i < n, (temp i).NanOrFin) :
    ∃ out, disaggregateTemperature api daily method mmt modNight md (some c) sun = .ok out ∧
      ∀ i < n, ∀ h < 24, ∃ x, (dayCells out (d0 + i))[h]? = some x ∧ x.NanOrFin ∧
        (x = .nan ↔ tmin i = .nan ∨ tmax i = .nan ∨ (method = "mean_course_mean" ∧ temp i = .nan)) := by
  have hh' : ∀ h : Nat, h < 24 → (h : Int) ∈ c.hours := by
    intro h hl
    rw [hh]
    exact List.mem_map.2 ⟨h, List.mem_range.2 hl, rfl⟩
  rcases hm with rfl | rfl
  · refine ⟨_, courseMinMax_eq api hd.index hn hd.hmin hd.hmax mmt modNight md sun hmon hh', ?_⟩
    intro i hin h hl
    rw [dayCells_hourlyS d0 _ hin, day24_getElem? _ hl]
    refine ⟨_, rfl, ?_⟩
    have := nan_iff_of_nanOrFin (hv i hin h hl) (hf2 i hin) (hf1 i hin)
    refine ⟨this.1, this.2.trans ?_⟩
    simp [or_comm]
  · refine ⟨_, courseMean_eq api hd hn mmt modNight md sun hmon hh', ?_⟩
    intro i hin h hl
    rw [dayCells_hourlyS d0 _ hin, day24_getElem? _ hl]
    refine ⟨_, rfl, ?_⟩
    obtain ⟨z, hz⟩ : ∃ z, meanSkip (c.column (monthOf (at00 (d0 + i)))) = .fin z := by
      have hcol : ∀ x ∈ c.column (monthOf (at00 (d0 + i))), ∃ y, x = .fin y := by
        intro x hx
        unfold MeanCourse.column at hx
        rw [hh, List.map_map] at hx
        obtain ⟨k, hk, rfl⟩ := List.mem_map.1 hx
        exact hv i hin k (List.mem_range.1 hk)
      refine ⟨_, meanSkip_eq (fun x hx => ?_) ?_⟩
      · obtain ⟨y, rfl⟩ := hcol x hx; trivial
      · obtain ⟨y, hy⟩ := hv i hin 0 (by decide)
        apply List.ne_nil_of_mem (a := y)
        unfold numbers
        refine List.mem_filterMap.2 ⟨.fin y, ?_, rfl⟩
        unfold MeanCourse.column
        rw [hh, List.map_map]
        exact List.mem_map.2 ⟨0, by simp, hy⟩
    obtain ⟨y, hy⟩ := hv i hin h hl
    rw [hz, hy, XF.fin_sub_fin]
    have h1 := hf1 i hin
    have h2 := hf2 i hin
    have h3 := hf3 i hin
    cases e1 : tmin i <;> cases e2 : tmax i <;> cases e3 : temp i <;> first
      | (rw [e1] at h1; exact h1.elim)
      | (rw [e2] at h2; exact h2.elim)
      | (rw [e3] at h3; exact h3.elim)
      | (constructor
         · simp only [XF.nan_sub, XF.sub_nan, XF.mul_nan, XF.nan_mul, XF.nan_add, XF.add_nan, XF.fin_sub_fin, XF.fin_mul_fin, XF.fin_add_fin]; trivial
         · simp)

/-- **C51.**  A sine method succeeds only if no row of the sun times has a day length below 3 h.  If one has, and the sun times are those of the
days of the frame, and the hours of minimum and maximum can be determined, the call raises ValueError or AttributeError; without such a row it
succeeds. -/
theorem C51_polar_night (api : PandasApi) (hd : TempDays daily d0 n tmin tmax temp) (hn : 0 < n) (method mmt : String)
    (hm : method = "sine_min_max" ∨ method = "sine_mean" ∨ method = "sine") (modNight : Bool) (md : Option (List (Int × XF ℝ)))
    (course : Option (MeanCourse ℝ)) (sun : Series SunTimes) :
    ((∃ r ∈ sun, XF.lt r.2.daylength (.fin 3)) → ∀ out, disaggregateTemperature api daily method mmt modNight md course (some sun) ≠ .ok out) ∧
    (sun.index = daily.index → (∀ i < n, ∃ lo hi, IsLoc mmt md sun (at00 (d0 + (i : Nat))) lo hi) →
      ((∃ r ∈ sun, XF.lt r.2.daylength (.fin 3)) →
        disaggregateTemperature api daily method mmt modNight md course (some sun) = .error .valueError ∨
        disaggregateTemperature api daily method mmt modNight md course (some sun) = .error .attributeError) ∧
      ((¬ ∃ r ∈ sun, XF.lt r.2.daylength (.fin 3)) →
        ∃ out, disaggregateTemperature api daily method mmt modNight md course (some sun) = .ok out)) := by
  refine ⟨?_, ?_⟩
  · rintro ⟨r, hr, hlt⟩ out h
    obtain ⟨_, _, _, _, _, _, _, s, hs, hp⟩ := sine_inv hd hn hm h
    cases hs
    exact hp r hr hlt
  · intro hs hloc
    refine ⟨?_, ?_⟩
    · rintro ⟨r, hr, hlt⟩
      obtain ⟨locs, hl, ht⟩ := minMaxLoc_ok hd.index hn hloc fun _ => hs
      obtain ⟨lo, hlo⟩ := mapM_exists (l := locs) (f := fun p => p.1.toInt) fun p hp => (ht p hp).1
      obtain ⟨hi, hhi⟩ := mapM_exists (l := locs) (f := fun p => p.2.toInt) fun p hp => (ht p hp).2
      have hex : ∃ loc, locTable daily mmt md (some sun) = .ok loc := by
        unfold locTable
        rw [hl, py_ok_bind, hlo, py_ok_bind, hhi, py_ok_bind, attr_ok hd.hmin, py_ok_bind, attr_ok hd.hmax, py_ok_bind, attr_ok hd.htemp, py_ok_bind]
        exact ⟨_, rfl⟩
      obtain ⟨loc, hloc'⟩ := hex
      have hsort : loc.index.Pairwise (· < ·) := by
        obtain ⟨_, _, _, _, _, _, rfl⟩ := locTable_inv hd hloc'
        exact dailyS_index_sorted _ _ _
      unfold disaggregateTemperature
      rw [if_neg (by rcases hm with rfl | rfl | rfl <;> simp), temp_hourly_index api hd.index hn, py_ok_bind, if_pos hm]
      unfold sineTemperature
      rw [hloc', py_ok_bind, if_neg (not_not.2 hsort)]
      dsimp only
      rw [if_pos]
      · unfold polarBranch
        have hcases : ∀ idx, (∃ x, hourlyIndex api idx = .ok x) ∨ hourlyIndex api idx = .error .valueError ∨
            hourlyIndex api idx = .error .attributeError := by
          intro idx
          unfold hourlyIndex
          split
          · dsimp only
            split
            · unfold needs
              cases api.indexToDatetime
              · exact .inr (.inr rfl)
              · cases api.pdDatetime
                · exact .inr (.inr rfl)
                · exact .inl ⟨_, rfl⟩
            · exact .inl ⟨_, rfl⟩
          · exact .inr (.inl rfl)
        rcases hcases (Series.index (sun.filter fun r => decide (XF.lt r.2.daylength (.fin 3)))) with ⟨x, h⟩ | h | h
        · rw [h, py_ok_bind, if_neg (not_not.2 hs)]
          exact .inl rfl
        · rw [h]; exact .inl rfl
        · rw [h]; exact .inr rfl
      · rw [List.any_eq_true]
        exact ⟨r, hr, by simpa using hlt⟩
    · intro hno
      exact sine_ok api hd hn hm modNight course hloc (fun _ => hs) fun r hr hlt => hno ⟨r, hr, hlt⟩

/-- **C52.**  Whatever the data: an unknown method raises ValueError.  On a frame with tmin, tmax and temp: a sine method without sun times raises
AttributeError, also with fixed times; an unknown min_max_time makes it raise ValueError.  A mean course method without a course raises
AttributeError, and KeyError if the course lacks the month or the hour of one of the output rows. -/
theorem C52_options (api : PandasApi) (daily : Frame ℝ) (modNight : Bool) (md : Option (List (Int × XF ℝ))) (course : Option (MeanCourse ℝ))
    (sun : Option (Series SunTimes)) :
    (∀ method mmt, method ∉ ["sine_min_max", "sine_mean", "sine", "mean_course_min_max", "mean_course_mean"] →
      disaggregateTemperature api daily method mmt modNight md course sun = .error .valueError) ∧
    ∀ d0 n tmin tmax temp, TempDays daily d0 n tmin tmax temp → 0 < n →
      (∀ method ∈ ["sine_min_max", "sine_mean", "sine"],
        (∀ mmt ∈ ["fix", "sun_loc", "sun_loc_shift"],
          disaggregateTemperature api daily method mmt modNight md course none = .error .attributeError) ∧
        (∀ mmt, mmt ∉ ["fix", "sun_loc", "sun_loc_shift"] →
          disaggregateTemperature api daily method mmt modNight md course sun = .error .valueError)) ∧
      (∀ method ∈ ["mean_course_min_max", "mean_course_mean"], ∀ mmt,
        disaggregateTemperature api daily method mmt modNight md none sun = .error .attributeError ∧
        ∀ c : MeanCourse ℝ, (∃ i h : Nat, i < n ∧ h < 24 ∧ ¬ (monthOf (at00 (d0 + i)) ∈ c.months ∧ (h : Int) ∈ c.hours)) →
          disaggregateTemperature api daily method mmt modNight md (some c) sun = .error .keyError) := by
  refine ⟨?_, ?_⟩
  · intro method mmt hm
    unfold disaggregateTemperature
    rw [if_pos]
    simpa using hm
  · intro d0 n tmin tmax temp hd hn
    refine ⟨?_, ?_⟩
    · intro method hm
      have hm : method = "sine_min_max" ∨ method = "sine_mean" ∨ method = "sine" := by simpa using hm
      refine ⟨?_, ?_⟩
      · intro mmt hmm
        have hmm : mmt = "fix" ∨ mmt = "sun_loc" ∨ mmt = "sun_loc_shift" := by simpa using hmm
        unfold disaggregateTemperature
        rw [if_neg (by rcases hm with rfl | rfl | rfl <;> simp), temp_hourly_index api hd.index hn, py_ok_bind, if_pos hm]
        unfold sineTemperature
        rcases hmm with rfl | rfl | rfl
        · have hex : ∃ loc, locTable daily "fix" md none = .ok loc := by
            unfold locTable minMaxLoc
            rw [if_pos rfl, py_ok_bind]
            obtain ⟨lo, hlo⟩ := mapM_exists (l := daily.index.map fun _ => ((.fin 7, .fin 14) : XF ℝ × XF ℝ)) (f := fun p => p.1.toInt) fun p hp => by
              obtain ⟨_, _, rfl⟩ := List.mem_map.1 hp; exact ⟨_, rfl⟩
            obtain ⟨hi, hhi⟩ := mapM_exists (l := daily.index.map fun _ => ((.fin 7, .fin 14) : XF ℝ × XF ℝ)) (f := fun p => p.2.toInt) fun p hp => by
              obtain ⟨_, _, rfl⟩ := List.mem_map.1 hp; exact ⟨_, rfl⟩
            rw [hlo, py_ok_bind, hhi, py_ok_bind, attr_ok hd.hmin, py_ok_bind, attr_ok hd.hmax, py_ok_bind, attr_ok hd.htemp, py_ok_bind]
            exact ⟨_, rfl⟩
          obtain ⟨loc, hloc⟩ := hex
          have hsort : loc.index.Pairwise (· < ·) := by
            obtain ⟨_, _, _, _, _, _, rfl⟩ := locTable_inv hd hloc
            exact dailyS_index_sorted _ _ _
          rw [hloc, py_ok_bind, if_neg (not_not.2 hsort)]
        · rfl
        · rfl
      · intro mmt hmm
        have hmm : ¬ mmt = "fix" ∧ ¬ mmt = "sun_loc" ∧ ¬ mmt = "sun_loc_shift" := by simpa using hmm
        unfold disaggregateTemperature
        rw [if_neg (by rcases hm with rfl | rfl | rfl <;> simp), temp_hourly_index api hd.index hn, py_ok_bind, if_pos hm]
        unfold sineTemperature locTable minMaxLoc
        rw [if_neg hmm.1, if_neg hmm.2.1, if_neg hmm.2.2, py_ok_bind, mapM_error (e := .valueError)]
        · rfl
        · intro p hp
          obtain ⟨_, _, rfl⟩ := List.mem_map.1 hp
          exact .inl rfl
        · refine ⟨(.nan, .nan), List.mem_map.2 ⟨at00 (d0 + (0 : Nat)), ?_, rfl⟩, rfl⟩
          rw [hd.index]
          exact List.mem_map.2 ⟨0, List.mem_range.2 hn, rfl⟩
    · intro method hm mmt
      have hm : method = "mean_course_min_max" ∨ method = "mean_course_mean" := by simpa using hm
      unfold disaggregateTemperature
      rw [if_neg (by rcases hm with rfl | rfl <;> simp), temp_hourly_index api hd.index hn, py_ok_bind,
        if_neg (by rcases hm with rfl | rfl <;> decide)]
      rcases hm with rfl | rfl
      · rw [if_pos rfl]
        refine ⟨rfl, ?_⟩
        rintro c ⟨i, h, hi, hh, hx⟩
        rw [if_neg (by simp), py_ok_bind, if_neg (by decide), if_pos rfl]
        unfold courseMinMax
        dsimp only
        rw [mapM_lookup_error hi hh hx]
        rfl
      · rw [if_neg (by decide)]
        unfold courseMean
        refine ⟨?_, ?_⟩
        · rw [attr_ok hd.hmax, py_ok_bind, reindexFfill_limit_daily_hourly, py_ok_bind, attr_ok hd.hmin, py_ok_bind,
            reindexFfill_limit_daily_hourly, py_ok_bind]
          rfl
        rintro c ⟨i, h, hi, hh, hx⟩
        rw [if_neg (by simp), py_ok_bind, if_neg (by decide), if_neg (by decide)]
        rw [attr_ok hd.hmax, py_ok_bind, reindexFfill_limit_daily_hourly, py_ok_bind, attr_ok hd.hmin, py_ok_bind,
          reindexFfill_limit_daily_hourly, py_ok_bind]
        dsimp only
        rw [mapM_lookup_error (c := c.zeroMean) hi hh hx]
        rfl

/-! ## concrete cases -/

/-- a course for January: 0 before noon, 1/2 from noon on, 1 at 15:00 -/
def exCourse : MeanCourse ℝ where
  months := [1]
  hours := (List.range 24).map fun k : Nat => (k : Int)
  val := fun _ h => if h < 12 then .fin 0 else if h = 15 then .fin 1 else .fin (1 / 2)

theorem exCourse_norm (m : Int) : Normalized exCourse m := by
  refine ⟨?_, ⟨0, by decide, by simp [exCourse]⟩, ⟨15, by decide, by simp [exCourse]⟩⟩
  intro h _
  unfold exCourse
  dsimp only
  split
  · exact ⟨0, rfl, by norm_num⟩
  · split
    · exact ⟨1, rfl, by norm_num⟩
    · exact ⟨1 / 2, rfl, by norm_num⟩

theorem exMonth : ∀ i : Nat, i < 2 → monthOf (at00 (0 + i)) = 1 := by decide

theorem exCovers : Covers exCourse 0 2 := by
  refine ⟨fun i hi => by rw [exMonth i hi]; simp [exCourse], fun h hh => ?_⟩
  exact List.mem_map.2 ⟨h, List.mem_range.2 hh, rfl⟩

/-- C48: the second day of the example -/
example : ∃ out, disaggregateTemperature .modern exFrame "mean_course_min_max" "fix" false none (some exCourse) none = .ok out ∧
    MinIs (dayCells out (0 + (1 : Nat))) 273 ∧ MaxIs (dayCells out (0 + (1 : Nat))) 303 := by
  obtain ⟨out, h, _, h2⟩ := C48_mean_course_min_max .modern exDays.index (by decide) exDays.hmin exDays.hmax "fix" false none none exCourse exCovers
  exact ⟨out, h, h2 1 (by decide) 273 303 rfl rfl (by norm_num) (exCourse_norm _)⟩

/-- one observed day whose temperature is the hour -/
def hourObs : Series (XF ℝ) := hourlyS 0 1 fun _ h => .fin (h : ℝ)

theorem hourObs_num : ∀ r ∈ hourObs, r.2.NanOrFin := by
  intro r hr
  obtain ⟨k, _, rfl⟩ := List.mem_map.1 hr
  trivial

theorem hourObs_row : ∀ h : Nat, h < 24 → (atHour 0 h, (.fin (h : ℝ) : XF ℝ)) ∈ hourObs := by
  intro h hh
  refine List.mem_map.2 ⟨h, List.mem_range.2 (by omega), ?_⟩
  rw [Nat.mod_eq_of_lt hh, Nat.div_eq_of_lt hh]
  rfl

theorem hourObs_month : ∀ h : Nat, h < 24 → monthOf (atHour 0 h) = 1 := by decide

theorem hourObs_hour : ∀ h : Nat, h < 24 → atHour 0 h % 86400000000 / 3600000000 = h := fun _ hh => hourOf_atHour 0 hh

theorem hourObs_val : ∀ h : Nat, h < 24 → (meanDailyCourseByMonth hourObs).val 1 h = .fin (h : ℝ) := by
    intro h hh
    have hmem : (h : ℝ) ∈ numbers (obsOf hourObs 1 h) := by
      refine List.mem_filterMap.2 ⟨.fin (h : ℝ), ?_, rfl⟩
      refine List.mem_map.2 ⟨_, List.mem_filter.2 ⟨hourObs_row h hh, ?_⟩, rfl⟩
      simp [hourObs_month h hh, hourObs_hour h hh]
    have hall : ∀ y ∈ numbers (obsOf hourObs 1 h), y = h := by
      intro y hy
      obtain ⟨c, hc, e⟩ := List.mem_filterMap.1 hy
      obtain ⟨r, hr, rfl⟩ := List.mem_map.1 hc
      obtain ⟨hr, hd⟩ := List.mem_filter.1 hr
      obtain ⟨k, hk, rfl⟩ := List.mem_map.1 hr
      have hk := List.mem_range.1 hk
      have := hourOf_atHour (0 + (k / 24 : Nat)) (h := k % 24) (by omega)
      unfold hourOf at this
      simp only [decide_eq_true_eq] at hd
      have h2 : ((k % 24 : Nat) : Int) = h := this.symm.trans hd.2
      have h2 : k % 24 = h := by exact_mod_cast h2
      simp only [Option.some.injEq] at e
      rw [← e, h2]
    obtain ⟨x, hx, _, ⟨a, ha, h1⟩, b, hb, h2⟩ := ((C14_mean_course _ hourObs_num).2.2 1 h).2 (List.ne_nil_of_mem hmem)
    rw [hall a ha] at h1
    rw [hall b hb] at h2
    rw [hx, le_antisymm h2 h1]

theorem hourObs_variable : Variable24 hourObs 1 := by
  have hval := hourObs_val
  refine ⟨fun h hh => ⟨_, hval h hh⟩, 0, 1, by decide, by decide, ?_⟩
  rw [hval 0 (by decide), hval 1 (by decide)]
  simp

/-- C48 (fitted): one observed day whose temperature is the hour -/
example : ∃ out, disaggregateTemperature .modern exFrame "mean_course_min_max" "fix" false none
      (some (meanDailyCourseByMonth hourObs true)) none = .ok out ∧
    MinIs (dayCells out (0 + (1 : Nat))) 273 ∧ MaxIs (dayCells out (0 + (1 : Nat))) 303 := by
  obtain ⟨out, h, h2⟩ := C48_fitted .modern exDays.index (by decide) exDays.hmin exDays.hmax "fix" false none none _ hourObs_num
    (fun i hi h hh => ⟨_, hourObs_row h hh, by rw [hourObs_month h hh, exMonth i hi], hourObs_hour h hh⟩)
  refine ⟨out, h, h2 1 (by decide) 273 303 rfl rfl (by norm_num) ?_⟩
  rw [exMonth 1 (by decide)]
  exact hourObs_variable

/-- C49: the second day of the example -/
example : ∃ out, disaggregateTemperature .modern exFrame "mean_course_mean" "fix" false none (some exCourse) none = .ok out ∧
    MeanIs (dayCells out (0 + (1 : Nat))) 288 ∧ ∃ lo, MinIs (dayCells out (0 + (1 : Nat))) lo ∧ MaxIs (dayCells out (0 + (1 : Nat))) (lo + (303 - 273)) := by
  obtain ⟨out, h, _, h2⟩ := C49_mean_course_mean .modern exDays (by decide) "fix" false none none exCourse exCovers.months rfl
    (fun i _ h hh => by obtain ⟨y, hy, _⟩ := (exCourse_norm (monthOf (at00 (0 + i)))).range h hh; exact ⟨y, hy⟩)
  have := h2 1 (by decide) 273 303 288 rfl rfl rfl
  exact ⟨out, h, this.1, this.2 (exCourse_norm _) (by norm_num)⟩

/-- C50: a missing maximum on the first day makes its hours missing, not those of the second day -/
example : ∃ out, disaggregateTemperature .modern
      ⟨[at00 0, at00 1], [("tmin", [.fin 283, .fin 283]), ("tmax", [.nan, .fin 293]), ("temp", [.fin 288, .fin 288])]⟩
      "mean_course_mean" "fix" false none (some exCourse) none = .ok out ∧
    (dayCells out (0 + (0 : Nat)))[5]? = some .nan ∧ (dayCells out (0 + (1 : Nat)))[5]? ≠ some .nan := by
  have hd : TempDays ⟨[at00 0, at00 1], [("tmin", [.fin 283, .fin 283]), ("tmax", [.nan, .fin 293]), ("temp", [.fin 288, .fin 288])]⟩ 0 2
      (fun _ => .fin 283) (fun i => if i = 0 then .nan else .fin 293) (fun _ => .fin 288) := ⟨rfl, rfl, rfl, rfl⟩
  obtain ⟨out, h, h2⟩ := C50_missing_course .modern hd (by decide) _ "fix" (.inr rfl) false none none exCourse exCovers.months rfl
    (fun i _ h hh => by obtain ⟨y, hy, _⟩ := (exCourse_norm (monthOf (at00 (0 + i)))).range h hh; exact ⟨y, hy⟩)
    (fun _ _ => trivial) (fun i _ => by split <;> trivial) (fun _ _ => trivial)
  refine ⟨out, h, ?_, ?_⟩
  · obtain ⟨x, e, _, hx⟩ := h2 0 (by decide) 5 (by decide)
    rw [e, hx.2 (by simp)]
  · obtain ⟨x, e, _, hx⟩ := h2 1 (by decide) 5 (by decide)
    rw [e]
    intro hn
    have := hx.1 (Option.some.inj hn)
    simp at this

/-- C51: a day of 2 h among the sun times -/
example : disaggregateTemperature .modern exFrame "sine_min_max" "fix" false none none
      (some (dailyS 0 2 fun i => if i = 0 then ⟨.fin 11, .fin 12, .fin 13, .fin 2⟩ else ⟨.fin 10, .fin 12, .fin 14, .fin 4⟩)) = .error .valueError ∨
    disaggregateTemperature .modern exFrame "sine_min_max" "fix" false none none
      (some (dailyS 0 2 fun i => if i = 0 then ⟨.fin 11, .fin 12, .fin 13, .fin 2⟩ else ⟨.fin 10, .fin 12, .fin 14, .fin 4⟩)) =
        .error .attributeError := by
  refine ((C51_polar_night .modern exDays (by decide) _ "fix" (.inl rfl) false none none _).2 rfl (fun _ _ => ⟨7, 14, .inl ⟨rfl, rfl, rfl⟩⟩)).1 ?_
  refine ⟨(at00 (0 + (0 : Nat)), ⟨.fin 11, .fin 12, .fin 13, .fin 2⟩), ?_, ?_⟩
  · exact List.mem_map.2 ⟨0, by simp, rfl⟩
  · simp only [XF.lt_fin]; norm_num

/-- C52: a course without the month of the data -/
example : disaggregateTemperature .modern exFrame "mean_course_mean" "fix" false none (some { exCourse with months := [2] }) none =
    .error .keyError := by
  refine (((C52_options .modern exFrame false none none none).2 0 2 _ _ _ exDays (by decide)).2 "mean_course_mean" (by simp) "fix").2 _ ?_
  exact ⟨0, 0, by decide, by decide, by rw [exMonth 0 (by decide)]; simp⟩

end

end Melodist
