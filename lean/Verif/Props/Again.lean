import Verif.Lemmas.Again
import Verif.Props.TemperatureB
import Verif.Props.TemperatureC

/-!
# C103: aggregating hourly results to daily values and disaggregating again: temperature
-/

set_option linter.unusedSectionVars false

namespace Melodist
open Spec

/-- the daily values of a day: one of them is missing, or they are numbers and the minimum is not above the maximum -/
def Spec.ValidDay (tmin tmax temp : XF ℝ) : Prop :=
  tmin = .nan ∨ tmax = .nan ∨ temp = .nan ∨ ∃ a b t, tmin = .fin a ∧ tmax = .fin b ∧ temp = .fin t ∧ a ≤ b

section
variable {daily : Frame ℝ} {d0 : Int} {n : Nat} {tmin tmax temp : Nat → XF ℝ}

/-- the whole day is missing -/
theorem day_nan {f : Nat → Nat → XF ℝ} {i : Nat} (hi : i < n) (h : ∀ k < 24, f i k = .nan) : AllNan (dayCells (hourlyS d0 n f) (d0 + (i : Int))) := by
  rw [dayCells_hourlyS d0 _ hi]
  intro c hc
  obtain ⟨k, hk, rfl⟩ := mem_day24.1 hc
  exact h k hk

/-- **C103** (sine_mean) The hourly temperatures of 'sine_mean' in an hourly table, aggregated by `daily_from_hourly` and disaggregated again with the same options, are
the same temperatures. -/
theorem C103_sine_mean {api : PandasApi} (hd : TempDays daily d0 n tmin tmax temp) (hn : 0 < n) (hv : ∀ i < n, ValidDay (tmin i) (tmax i) (temp i)) {mmt : String}
    {modNight : Bool} {md : Option (List (Int × XF ℝ))} {course : Option (MeanCourse ℝ)} {sun : Option (Series SunTimes)} {out : Series (XF ℝ)}
    (hret : disaggregateTemperature api daily "sine_mean" mmt modNight md course sun = .ok out) {H : Frame ℝ} (hw : H.WF) (hc : H.col? "temp" = some out) :
    disaggregateTemperature api (dailyFromHourly H) "sine_mean" mmt modNight md course sun = .ok out := by
  obtain ⟨lo, hi, e, -⟩ := sine_again hd hd hn (.inr (.inl rfl)) hret
  simp only [if_true] at e
  have miss : ∀ i < n, (tmin i = .nan ∨ tmax i = .nan ∨ temp i = .nan) → ∀ k : Nat, sineMeanCell (k : Int) (locRow n tmin tmax temp lo hi i) = .nan := by
    intro i _ h k
    unfold sineMeanCell locRow
    rcases h with h | h | h <;> simp [h]
  have cases_day : ∀ i < n, AllNan (dayCells out (d0 + (i : Int))) ∨ ∃ a b t, tmin i = .fin a ∧ tmax i = .fin b ∧ temp i = .fin t ∧
      MeanIs (dayCells out (d0 + (i : Int))) t ∧ MaxIs (dayCells out (d0 + (i : Int))) (t + (b - a) / 2) ∧ MinIs (dayCells out (d0 + (i : Int))) (t - (b - a) / 2) := by
    intro i hi'
    rcases hv i hi' with h | h | h | ⟨a, b, t, ha, hb, ht, hab⟩
    · exact .inl (by rw [e]; exact day_nan hi' fun k _ => miss i hi' (.inl h) k)
    · exact .inl (by rw [e]; exact day_nan hi' fun k _ => miss i hi' (.inr (.inl h)) k)
    · exact .inl (by rw [e]; exact day_nan hi' fun k _ => miss i hi' (.inr (.inr h)) k)
    · exact .inr ⟨a, b, t, ha, hb, ht, C47_sine_mean api hd hn mmt modNight md course sun out hret i hi' a b t ha hb ht hab⟩
  have nf : ∀ i < n, ∀ c ∈ dayCells out (d0 + (i : Int)), c.NanOrFin := by
    intro i hi'
    rcases cases_day i hi' with h | ⟨_, _, _, _, _, _, ⟨ys, h, _⟩, _⟩
    · exact nanOrFin_of_allNan h
    · exact nanOrFin_of_map h
  rw [e] at hc nf
  have hd' := daily_temp hw hn hc nf
  rw [← e] at hd'
  obtain ⟨lo', hi', e', r⟩ := sine_again hd hd' hn (.inr (.inl rfl)) hret
  rw [r]
  simp only [if_true] at e' ⊢
  refine congrArg _ (Eq.trans ?_ e'.symm)
  apply hourlyS_congr
  intro i hi'' k hk
  rcases cases_day i hi'' with h | ⟨a, b, t, ha, hb, ht, h1, h2, h3⟩
  · have l : sineMeanCell (k : Int) (locRow n tmin tmax temp lo' hi' i) = .nan := by
      rw [e', dayCells_hourlyS d0 _ hi''] at h
      exact h _ (mem_day24.2 ⟨k, hk, rfl⟩)
    rw [l]
    unfold sineMeanCell locRow
    simp only [numbers_allNan h]
    simp [minOf, maxOf, meanOf]
  · unfold sineMeanCell locRow
    simp only [minOf_minIs h3, maxOf_maxIs h2, meanOf_meanIs h1, ha, hb, ht]
    rw [XF.fin_sub_fin, XF.fin_sub_fin]
    congr 4
    ring

/-- **C103** (mean_course_min_max) The same for 'mean_course_min_max' with a course normalised in the months of the record; tmin and tmax may also be missing. -/
theorem C103_mean_course_min_max (api : PandasApi) (hi : daily.index = (List.range n).map fun i : Nat => at00 (d0 + i)) (hn : 0 < n)
    (hmin : daily.col? "tmin" = some (dailyS d0 n tmin)) (hmax : daily.col? "tmax" = some (dailyS d0 n tmax))
    (hv : ∀ i < n, tmin i = .nan ∨ tmax i = .nan ∨ ∃ a b, tmin i = .fin a ∧ tmax i = .fin b ∧ a ≤ b) (mmt : String) (modNight : Bool)
    (md : Option (List (Int × XF ℝ))) (sun : Option (Series SunTimes)) (c : MeanCourse ℝ) (hcov : Covers c d0 n)
    (hnorm : ∀ i < n, Normalized c (monthOf (at00 (d0 + (i : Nat))))) {out : Series (XF ℝ)}
    (hret : disaggregateTemperature api daily "mean_course_min_max" mmt modNight md (some c) sun = .ok out) {H : Frame ℝ} (hw : H.WF) (hc : H.col? "temp" = some out) :
    disaggregateTemperature api (dailyFromHourly H) "mean_course_min_max" mmt modNight md (some c) sun = .ok out := by
  have e := courseMinMax_eq api hi hn hmin hmax mmt modNight md sun hcov.months hcov.hours
  rw [hret] at e
  have e := Except.ok.inj e
  obtain ⟨out2, h2, _, h3⟩ := C48_mean_course_min_max api hi hn hmin hmax mmt modNight md sun c hcov
  rw [hret] at h2
  cases h2
  have cases_day : ∀ i < n, AllNan (dayCells out (d0 + (i : Int))) ∨ ∃ a b, tmin i = .fin a ∧ tmax i = .fin b ∧
      MinIs (dayCells out (d0 + (i : Int))) a ∧ MaxIs (dayCells out (d0 + (i : Int))) b := by
    intro i hi'
    rcases hv i hi' with h | h | ⟨a, b, ha, hb, hab⟩
    · exact .inl (by rw [e]; exact day_nan hi' fun k _ => by simp [h])
    · exact .inl (by rw [e]; exact day_nan hi' fun k _ => by simp [h])
    · exact .inr ⟨a, b, ha, hb, h3 i hi' a b ha hb hab (hnorm i hi')⟩
  have nf : ∀ i < n, ∀ c ∈ dayCells out (d0 + (i : Int)), c.NanOrFin := by
    intro i hi'
    rcases cases_day i hi' with h | ⟨_, _, _, _, ⟨ys, h, _⟩, _⟩
    · exact nanOrFin_of_allNan h
    · exact nanOrFin_of_map h
  have hc' := hc
  rw [e] at hc' nf
  have hd' := daily_temp hw hn hc' nf
  rw [← e] at hd'
  rw [courseMinMax_eq api hd'.index hn hd'.hmin hd'.hmax mmt modNight md sun hcov.months hcov.hours]
  refine congrArg _ (Eq.trans ?_ e.symm)
  apply hourlyS_congr
  intro i hi'' k hk
  rcases cases_day i hi'' with h | ⟨a, b, ha, hb, h1, h2⟩
  · have l : c.val (monthOf (at00 (d0 + (i : Nat)))) (k : Nat) * (tmax i - tmin i) + tmin i = .nan := by
      rw [e, dayCells_hourlyS d0 _ hi''] at h
      exact h _ (mem_day24.2 ⟨k, hk, rfl⟩)
    rw [l, numbers_allNan h]
    simp [minOf]
  · rw [minOf_minIs h1, maxOf_maxIs h2, ha, hb]

/-- **C103** (mean_course_mean) The same for 'mean_course_mean' with a course for the hours 0..23 normalised in the months of the record. -/
theorem C103_mean_course_mean (api : PandasApi) (hd : TempDays daily d0 n tmin tmax temp) (hn : 0 < n) (hv : ∀ i < n, ValidDay (tmin i) (tmax i) (temp i))
    (mmt : String) (modNight : Bool) (md : Option (List (Int × XF ℝ))) (sun : Option (Series SunTimes)) (c : MeanCourse ℝ)
    (hm : ∀ i : Nat, i < n → monthOf (at00 (d0 + i)) ∈ c.months) (hh : c.hours = (List.range 24).map fun k : Nat => (k : Int))
    (hnorm : ∀ i < n, Normalized c (monthOf (at00 (d0 + (i : Nat))))) {out : Series (XF ℝ)}
    (hret : disaggregateTemperature api daily "mean_course_mean" mmt modNight md (some c) sun = .ok out) {H : Frame ℝ} (hw : H.WF) (hc : H.col? "temp" = some out) :
    disaggregateTemperature api (dailyFromHourly H) "mean_course_mean" mmt modNight md (some c) sun = .ok out := by
  have hh' : ∀ h : Nat, h < 24 → (h : Int) ∈ c.hours := by
    intro h hl
    rw [hh]
    exact List.mem_map.2 ⟨h, List.mem_range.2 hl, rfl⟩
  have e := courseMean_eq api hd hn mmt modNight md sun hm hh'
  rw [hret] at e
  have e := Except.ok.inj e
  obtain ⟨out2, h2, _, h3⟩ := C49_mean_course_mean api hd hn mmt modNight md sun c hm hh fun i hi h hl => by
    obtain ⟨y, hy, _⟩ := (hnorm i hi).range h hl
    exact ⟨y, hy⟩
  rw [hret] at h2
  cases h2
  have cases_day : ∀ i < n, AllNan (dayCells out (d0 + (i : Int))) ∨ ∃ a b t lo, tmin i = .fin a ∧ tmax i = .fin b ∧ temp i = .fin t ∧
      MeanIs (dayCells out (d0 + (i : Int))) t ∧ MinIs (dayCells out (d0 + (i : Int))) lo ∧ MaxIs (dayCells out (d0 + (i : Int))) (lo + (b - a)) := by
    intro i hi'
    rcases hv i hi' with h | h | h | ⟨a, b, t, ha, hb, ht, hab⟩
    · exact .inl (by rw [e]; exact day_nan hi' fun k _ => by simp [h])
    · exact .inl (by rw [e]; exact day_nan hi' fun k _ => by simp [h])
    · exact .inl (by rw [e]; exact day_nan hi' fun k _ => by simp [h])
    · obtain ⟨m, r⟩ := h3 i hi' a b t ha hb ht
      obtain ⟨lo, r1, r2⟩ := r (hnorm i hi') hab
      exact .inr ⟨a, b, t, lo, ha, hb, ht, m, r1, r2⟩
  have nf : ∀ i < n, ∀ c ∈ dayCells out (d0 + (i : Int)), c.NanOrFin := by
    intro i hi'
    rcases cases_day i hi' with h | ⟨_, _, _, _, _, _, _, ⟨ys, h, _⟩, _⟩
    · exact nanOrFin_of_allNan h
    · exact nanOrFin_of_map h
  have hc' := hc
  rw [e] at hc' nf
  have hd' := daily_temp hw hn hc' nf
  rw [← e] at hd'
  rw [courseMean_eq api hd' hn mmt modNight md sun hm hh']
  refine congrArg _ (Eq.trans ?_ e.symm)
  apply hourlyS_congr
  intro i hi'' k hk
  rcases cases_day i hi'' with h | ⟨a, b, t, lo, ha, hb, ht, h1, h2, h3⟩
  · have l := h
    rw [e, dayCells_hourlyS d0 _ hi''] at l
    rw [l _ (mem_day24.2 ⟨k, hk, rfl⟩), numbers_allNan h]
    simp [meanOf]
  · rw [minOf_minIs h2, maxOf_maxIs h3, meanOf_meanIs h1, ha, hb, ht, XF.fin_sub_fin, XF.fin_sub_fin, add_sub_cancel_left]

/-- **C103** (sine_min_max, sine) The same for 'sine_min_max' and 'sine' if the hourly values have the daily extremes (C45 says when they do). -/
theorem C103_sine {api : PandasApi} (hd : TempDays daily d0 n tmin tmax temp) (hn : 0 < n) {method : String} (hm : method = "sine_min_max" ∨ method = "sine")
    {mmt : String} {modNight : Bool} {md : Option (List (Int × XF ℝ))} {course : Option (MeanCourse ℝ)} {sun : Option (Series SunTimes)} {out : Series (XF ℝ)}
    (hret : disaggregateTemperature api daily method mmt modNight md course sun = .ok out)
    (hex : ∀ i < n, ∃ a b, tmin i = .fin a ∧ tmax i = .fin b ∧ MinIs (dayCells out (d0 + (i : Nat))) a ∧ MaxIs (dayCells out (d0 + (i : Nat))) b)
    {H : Frame ℝ} (hw : H.WF) (hc : H.col? "temp" = some out) :
    disaggregateTemperature api (dailyFromHourly H) method mmt modNight md course sun = .ok out := by
  have hm' : method = "sine_min_max" ∨ method = "sine_mean" ∨ method = "sine" := by rcases hm with h | h <;> simp [h]
  have hne : method ≠ "sine_mean" := by rcases hm with h | h <;> simp [h]
  obtain ⟨lo, hi, e, -⟩ := sine_again hd hd hn hm' hret
  have nf : ∀ i < n, ∀ c ∈ dayCells out (d0 + (i : Int)), c.NanOrFin := by
    intro i hi'
    obtain ⟨_, _, _, _, ⟨ys, h, _⟩, _⟩ := hex i hi'
    exact nanOrFin_of_map h
  have hc' := hc
  rw [e] at hc' nf
  have hd' := daily_temp hw hn hc' nf
  rw [← e] at hd'
  obtain ⟨lo', hi', e', r⟩ := sine_again hd hd' hn hm' hret
  rw [r]
  refine congrArg _ (Eq.trans ?_ e'.symm)
  apply hourlyS_congr
  intro i hi'' k hk
  rw [if_neg hne, if_neg hne]
  have t1 : ∀ j < n, minOf (numbers (dayCells out (d0 + (j : Nat)))) = tmin j := by
    intro j hj
    obtain ⟨a, b, ha, hb, h1, h2⟩ := hex j hj
    rw [minOf_minIs h1, ha]
  have t2 : ∀ j < n, maxOf (numbers (dayCells out (d0 + (j : Nat)))) = tmax j := by
    intro j hj
    obtain ⟨a, b, ha, hb, h1, h2⟩ := hex j hj
    rw [maxOf_maxIs h2, hb]
  have key : ∀ r r' : LocRow, r.minLoc = r'.minLoc → r.maxLoc = r'.maxLoc → r.minBefore = r'.minBefore → r.minCur = r'.minCur → r.minNext = r'.minNext →
      r.maxBefore = r'.maxBefore → r.maxCur = r'.maxCur → r.maxNext = r'.maxNext → sineCell modNight (k : Int) r = sineCell modNight (k : Int) r' := by
    intro r r' h1 h2 h3 h4 h5 h6 h7 h8
    unfold sineCell minValAt maxValAt
    rw [h1, h2, h4, h5, h6, h7]
  apply key
  · rfl
  · rfl
  · unfold locRow prevDay; split <;> exact t1 _ (by omega)
  · exact t1 i hi''
  · unfold locRow nextDay; dsimp only; split <;> exact t1 _ (by omega)
  · unfold locRow prevDay; split <;> exact t2 _ (by omega)
  · exact t2 i hi''
  · unfold locRow nextDay; dsimp only; split <;> exact t2 _ (by omega)

theorem exists_minIs {cells : List (XF ℝ)} {ys : List ℝ} (h : cells = ys.map XF.fin) (hne : ys ≠ []) : ∃ m, MinIs cells m := by
  obtain ⟨m, hm⟩ := Option.ne_none_iff_exists'.1 (fun h' => hne (List.min?_eq_none_iff.1 h'))
  obtain ⟨h1, h2⟩ := List.min?_eq_some_iff.1 hm
  exact ⟨m, ys, h, h1, h2⟩

theorem exists_maxIs {cells : List (XF ℝ)} {ys : List ℝ} (h : cells = ys.map XF.fin) (hne : ys ≠ []) : ∃ m, MaxIs cells m := by
  obtain ⟨m, hm⟩ := Option.ne_none_iff_exists'.1 (fun h' => hne (List.max?_eq_none_iff.1 h'))
  obtain ⟨h1, h2⟩ := List.max?_eq_some_iff.1 hm
  exact ⟨m, ys, h, h1, h2⟩

/-- **C103** (not so for the sine methods in general) There is a record on which aggregating the result of 'sine_min_max' and disaggregating again changes it. -/
theorem C103_sine_not : ∃ (daily : Frame ℝ) (sun : Series SunTimes) (out out' : Series (XF ℝ)),
    (∃ tmin tmax temp, TempDays daily 0 2 tmin tmax temp ∧ ∀ i < 2, ∃ y z, tmin i = .fin y ∧ tmax i = .fin z ∧ y ≤ z) ∧
    disaggregateTemperature .modern daily "sine_min_max" "fix" false none none (some sun) = .ok out ∧
    disaggregateTemperature .modern (dailyFromHourly ⟨out.index, [("temp", out.values)]⟩) "sine_min_max" "fix" false none none (some sun) = .ok out' ∧ out' ≠ out := by
  obtain ⟨out, h⟩ := exOk (.inl rfl) false
  have hv : ∀ i < 2, ∃ y z, exMin i = .fin y ∧ exMax i = .fin z ∧ y ≤ z := by
    intro i hi
    rcases i with _ | _ | i
    · exact ⟨283, 293, rfl, rfl, by norm_num⟩
    · exact ⟨273, 303, rfl, rfl, by norm_num⟩
    · omega
  obtain ⟨lo, hi, e, -⟩ := sine_again exDays exDays (by decide) (.inl rfl) h
  have n0 := (sine_day' exDays (.inl rfl) h (i := 0) (by decide) (.inl ⟨rfl, rfl, rfl⟩)).trans
    (sine_numbers (a := 283) (a' := 273) (b := 293) (b' := 293) (lo := 7) (hi := 14) rfl rfl rfl rfl (by simp))
  have n1 := (sine_day' exDays (.inl rfl) h (i := 1) (by decide) (.inl ⟨rfl, rfl, rfl⟩)).trans
    (sine_numbers (a := 273) (a' := 273) (b := 303) (b' := 293) (lo := 7) (hi := 14) rfl rfl rfl rfl (by simp))
  have nf : ∀ i : Nat, i < 2 → ∀ c ∈ dayCells out (0 + (i : Int)), c.NanOrFin := by
    intro i hi'
    rcases i with _ | _ | i
    · exact nanOrFin_of_map n0
    · exact nanOrFin_of_map n1
    · omega
  obtain ⟨H, hH⟩ : ∃ H : Frame ℝ, H = ⟨out.index, [("temp", out.values)]⟩ := ⟨_, rfl⟩
  have hw : H.WF := by
    subst hH
    intro c hc
    rw [List.mem_singleton.1 hc]
    simp [Series.index, Series.values]
  have hc' : H.col? "temp" = some out := hH ▸ congrArg some (index_zip_values out)
  rw [e] at hc' nf
  have hd' := daily_temp (d0 := 0) (n := 2) hw (by decide) hc' nf
  rw [← e] at hd'
  obtain ⟨lo', hi', e', r⟩ := sine_again exDays hd' (by decide) (.inl rfl) h
  refine ⟨exFrame, exSun, out, _, ⟨exMin, exMax, exTemp, exDays, hv⟩, h, hH ▸ r, ?_⟩
  intro heq
  obtain ⟨m0, hm0⟩ := exists_minIs n0 (by simp [day24])
  obtain ⟨m1, hm1⟩ := exists_minIs n1 (by simp [day24])
  obtain ⟨M0, hM0⟩ := exists_maxIs n0 (by simp [day24])
  have first := (C44_fixed_times .modern exDays _ (.inl rfl) _ _ _ out h 0 (by decide) 283 273 293 293 rfl rfl rfl rfl).2
  have second := (C44_fixed_times .modern hd' _ (.inl rfl) _ _ _ _ r 0 (by decide) m0 m1 M0 M0 (minOf_minIs hm0) (minOf_minIs hm1) (maxOf_maxIs hM0) (maxOf_maxIs hM0)).2
  rw [heq, first] at second
  have hm : (283 : ℝ) = m0 := by simpa using second
  obtain ⟨ys, hys, -, hle⟩ := hm0
  have hx : XF.fin (283 + 10 * Real.cos (3 * Real.pi / 4)) ∈ dayCells out (0 + ((0 : Nat) : Int)) := by
    rw [n0, day24_map]
    refine mem_day24.2 ⟨23, by decide, ?_⟩
    rw [sinePhase_false]
    congr 1
    rw [show 2 * Real.pi / 24 * (((((23 : Nat) : Int) - 14 : Int)) : ℝ) = 3 * Real.pi / 4 by push_cast; ring]
    norm_num
  rw [hys] at hx
  obtain ⟨y, hy, hy'⟩ := List.mem_map.1 hx
  have h2 := hle y hy
  have h1 : Real.cos (3 * Real.pi / 4) < 0 := by
    have := Real.pi_pos
    apply Real.cos_neg_of_pi_div_two_lt_of_lt <;> linarith
  have h3 : y = 283 + 10 * Real.cos (3 * Real.pi / 4) := by simpa using hy'
  linarith

theorem one_WF (name : String) (out : Series (XF ℝ)) : (⟨out.index, [(name, out.values)]⟩ : Frame ℝ).WF := by
  intro c hc
  rw [List.mem_singleton.1 hc]
  simp [Series.index, Series.values]

/-- C103 (sine_mean): the two days of the example -/
example : ∃ out, disaggregateTemperature .modern exFrame "sine_mean" "fix" false none none (some exSun) = .ok out ∧
    disaggregateTemperature .modern (dailyFromHourly ⟨out.index, [("temp", out.values)]⟩) "sine_mean" "fix" false none none (some exSun) = .ok out := by
  obtain ⟨out, h⟩ := exOk (.inr (.inl rfl)) false
  refine ⟨out, h, C103_sine_mean exDays (by decide) ?_ h (one_WF _ _) (congrArg some (index_zip_values out))⟩
  intro i hi
  rcases i with _ | _ | i
  · exact .inr (.inr (.inr ⟨283, 293, 288, rfl, rfl, rfl, by norm_num⟩))
  · exact .inr (.inr (.inr ⟨273, 303, 288, rfl, rfl, rfl, by norm_num⟩))
  · omega

/-- C103 (mean_course_min_max) -/
example : ∃ out, disaggregateTemperature .modern exFrame "mean_course_min_max" "fix" false none (some exCourse) none = .ok out ∧
    disaggregateTemperature .modern (dailyFromHourly ⟨out.index, [("temp", out.values)]⟩) "mean_course_min_max" "fix" false none (some exCourse) none = .ok out := by
  obtain ⟨out, h, _, _⟩ := C48_mean_course_min_max .modern exDays.index (by decide) exDays.hmin exDays.hmax "fix" false none none exCourse exCovers
  refine ⟨out, h, C103_mean_course_min_max .modern exDays.index (by decide) exDays.hmin exDays.hmax ?_ _ _ _ _ exCourse exCovers (fun _ _ => exCourse_norm _) h
    (one_WF _ _) (congrArg some (index_zip_values out))⟩
  intro i hi
  rcases i with _ | _ | i
  · exact .inr (.inr ⟨283, 293, rfl, rfl, by norm_num⟩)
  · exact .inr (.inr ⟨273, 303, rfl, rfl, by norm_num⟩)
  · omega

/-- C103 (mean_course_mean) -/
example : ∃ out, disaggregateTemperature .modern exFrame "mean_course_mean" "fix" false none (some exCourse) none = .ok out ∧
    disaggregateTemperature .modern (dailyFromHourly ⟨out.index, [("temp", out.values)]⟩) "mean_course_mean" "fix" false none (some exCourse) none = .ok out := by
  obtain ⟨out, h, _, _⟩ := C49_mean_course_mean .modern exDays (by decide) "fix" false none none exCourse exCovers.months rfl
    (fun i _ h hh => by obtain ⟨y, hy, _⟩ := (exCourse_norm (monthOf (at00 (0 + i)))).range h hh; exact ⟨y, hy⟩)
  refine ⟨out, h, C103_mean_course_mean .modern exDays (by decide) ?_ _ _ _ _ exCourse exCovers.months rfl (fun _ _ => exCourse_norm _) h
    (one_WF _ _) (congrArg some (index_zip_values out))⟩
  intro i hi
  rcases i with _ | _ | i
  · exact .inr (.inr (.inr ⟨283, 293, 288, rfl, rfl, rfl, by norm_num⟩))
  · exact .inr (.inr (.inr ⟨273, 303, 288, rfl, rfl, rfl, by norm_num⟩))
  · omega

/-- C103 (sine_min_max): two equal days -/
example : ∃ out, disaggregateTemperature .modern ⟨[at00 0, at00 1], [("tmin", [.fin 283, .fin 283]), ("tmax", [.fin 293, .fin 293]), ("temp", [.nan, .nan])]⟩
      "sine" "fix" false none none (some exSun) = .ok out ∧
    disaggregateTemperature .modern (dailyFromHourly ⟨out.index, [("temp", out.values)]⟩) "sine" "fix" false none none (some exSun) = .ok out := by
  have hd : TempDays ⟨[at00 0, at00 1], [("tmin", [.fin 283, .fin 283]), ("tmax", [.fin 293, .fin 293]), ("temp", [.nan, .nan])]⟩ 0 2
      (fun _ => .fin 283) (fun _ => .fin 293) (fun _ => .nan) := ⟨rfl, rfl, rfl, rfl⟩
  obtain ⟨out, h⟩ := sine_ok .modern hd (by decide) (mmt := "fix") (md := none) (sun := exSun) (.inr (.inr rfl)) false none
    (fun _ _ => ⟨7, 14, .inl ⟨rfl, rfl, rfl⟩⟩) (by decide) exSun_long
  refine ⟨out, h, C103_sine hd (by decide) (.inr rfl) h ?_ (one_WF _ _) (congrArg some (index_zip_values out))⟩
  intro i hi
  have e1 : nextDay 2 (fun _ => (XF.fin 283 : XF ℝ)) i = .fin 283 := by unfold nextDay; split <;> rfl
  have e2 : prevDay (fun _ => (XF.fin 293 : XF ℝ)) i = .fin 293 := by unfold prevDay; split <;> rfl
  exact ⟨283, 293, rfl, rfl, C45_extremes_preserved_if .modern hd _ _ (.inr rfl) _ _ _ out h i hi 283 283 293 293 rfl e1 rfl e2 7 14
    (.inl ⟨rfl, rfl, rfl⟩) (by decide) (by decide) le_rfl le_rfl (by norm_num) (by norm_num)⟩

end

end Melodist
