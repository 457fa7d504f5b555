import Verif.Lemmas.Refit
import Verif.Props.TemperatureC
import Verif.Props.TemperatureD
import Verif.Props.TemperatureShift
import Verif.Props.Radiation
import Verif.Props.Humidity
import Verif.Props.HumidityStats
import Verif.Lemmas.Align
import Verif.Lemmas.Sun

/-!
# C120: statistics fitted to the package's own hourly results
-/

set_option linter.unusedSectionVars false

namespace Melodist
open Spec

noncomputable section

variable {daily : Frame ℝ} {d0 : Int} {n : Nat} {tmin tmax temp : Nat → XF ℝ}

/-- the entries of a table for the 24 hours of a month, as numbers -/
theorem normalized_values {c : MeanCourse ℝ} {m : Int} (h : Normalized c m) : ∃ q : Nat → ℝ, (∀ h : Nat, h < 24 → c.val m h = .fin (q h)) ∧ (∀ h < 24, 0 ≤ q h ∧ q h ≤ 1) ∧
    (∃ h < 24, q h = 0) ∧ ∃ h < 24, q h = 1 := by
  have hq : ∀ h : Nat, ∃ y : ℝ, h < 24 → c.val m h = .fin y ∧ 0 ≤ y ∧ y ≤ 1 := by
    intro k
    by_cases hk : k < 24
    · obtain ⟨y, hy⟩ := h.range k hk
      exact ⟨y, fun _ => hy⟩
    · exact ⟨0, fun h => absurd h hk⟩
  choose q hq using hq
  obtain ⟨a, ha, ea⟩ := h.zero
  obtain ⟨b, hb, eb⟩ := h.one
  refine ⟨q, fun k hk => (hq k hk).1, fun k hk => (hq k hk).2, ⟨a, ha, ?_⟩, ⟨b, hb, ?_⟩⟩
  · exact XF.fin.inj ((hq a ha).1.symm.trans ea)
  · exact XF.fin.inj ((hq b hb).1.symm.trans eb)

/-- the months of the table fitted to a record are those of its days -/
theorem months_hourlyS {f : Nat → Nat → XF ℝ} {i : Nat} (hi : i < n) : monthOf (at00 (d0 + (i : Nat))) ∈ (meanDailyCourseByMonth (hourlyS d0 n f)).months := by
  unfold meanDailyCourseByMonth
  simp only [Bool.false_eq_true, if_false, List.mem_filter, List.mem_map, List.mem_range, List.any_eq_true, beq_iff_eq]
  have hr := monthOf_range (at00 (d0 + (i : Nat)))
  refine ⟨⟨(monthOf (at00 (d0 + (i : Nat))) - 1).toNat, by omega, by omega⟩, (atHour (d0 + (i : Nat)) 0, f i 0), ?_, ?_⟩
  · unfold hourlyS
    rw [List.mem_map]
    refine ⟨24 * i, List.mem_range.2 (by omega), ?_⟩
    rw [show 24 * i / 24 = i by omega, show 24 * i % 24 = 0 by omega]
  · rw [monthOf_atHour _ (by decide), monthOf_at00]

/-- **C120** (temperature, mean_course_min_max) The hourly temperature of 'mean_course_min_max', taken as observations: `calculate_mean_daily_course_by_month` with normalize=True
gives back the course that was used, hour by hour, in every month with at least one day with tmin < tmax (the other days may have tmin = tmax or miss values). -/
theorem C120_mean_course_min_max (api : PandasApi) (hi : daily.index = (List.range n).map fun i : Nat => at00 (d0 + i)) (hn : 0 < n)
    (hmin : daily.col? "tmin" = some (dailyS d0 n tmin)) (hmax : daily.col? "tmax" = some (dailyS d0 n tmax))
    (hv : ∀ i < n, tmin i = .nan ∨ tmax i = .nan ∨ ∃ a b, tmin i = .fin a ∧ tmax i = .fin b ∧ a ≤ b) (mmt : String) (modNight : Bool)
    (md : Option (List (Int × XF ℝ))) (sun : Option (Series SunTimes)) (c : MeanCourse ℝ) (hcov : Covers c d0 n)
    (hnorm : ∀ i < n, Normalized c (monthOf (at00 (d0 + (i : Nat))))) {out : Series (XF ℝ)}
    (hret : disaggregateTemperature api daily "mean_course_min_max" mmt modNight md (some c) sun = .ok out) (m : Int)
    (hm : ∃ i < n, monthOf (at00 (d0 + (i : Nat))) = m ∧ ∃ a b, tmin i = .fin a ∧ tmax i = .fin b ∧ a < b) :
    m ∈ (meanDailyCourseByMonth out true).months ∧
    ∀ h : Nat, h < 24 → (h : Int) ∈ (meanDailyCourseByMonth out true).hours ∧ (meanDailyCourseByMonth out true).val m h = c.val m h := by
  rw [courseMinMax_eq api hi hn hmin hmax mmt modNight md sun hcov.months hcov.hours] at hret
  injection hret with hret
  subst hret
  obtain ⟨j, hj, rfl, a, b, ea, eb, hab⟩ := hm
  refine ⟨months_hourlyS hj, fun h hh => ⟨(hours_hourlyS hn _ h).1.2 hh, ?_⟩⟩
  obtain ⟨q, hq, q1, q2, q3⟩ := normalized_values (hnorm j hj)
  rw [hq h hh]
  refine refit_course ?_ ?_ ⟨j, hj, rfl, a, b - a, by linarith, fun k hk => ?_⟩ q1 q2 q3 hh
  · intro i hi' k hk
    obtain ⟨y, hy, _⟩ := (hnorm i hi').range k hk
    rw [hy]
    rcases hv i hi' with h | h | ⟨a, b, h1, h2, _⟩
    · simp [h]
    · simp [h]
    · simp [h1, h2]
  · intro i hi' e
    rcases hv i hi' with h | h | ⟨a, b, h1, h2, hab⟩
    · left; intro k hk; simp [h]
    · left; intro k hk; simp [h]
    · right
      refine ⟨a, b - a, by linarith, fun k hk => ?_⟩
      rw [e, hq k hk, h1, h2, XF.fin_sub_fin, XF.fin_mul_fin, XF.fin_add_fin, add_comm]
  · rw [hq k hk, ea, eb, XF.fin_sub_fin, XF.fin_mul_fin, XF.fin_add_fin, add_comm]

/-- **C120** (temperature, mean_course_mean) The same for 'mean_course_mean' and a course for the hours 0..23. -/
theorem C120_mean_course_mean (api : PandasApi) (hd : TempDays daily d0 n tmin tmax temp) (hn : 0 < n)
    (hv : ∀ i < n, ((tmin i).NanOrFin ∧ (tmax i).NanOrFin ∧ (temp i).NanOrFin) ∧ ∀ a b, tmin i = .fin a → tmax i = .fin b → a ≤ b) (mmt : String) (modNight : Bool)
    (md : Option (List (Int × XF ℝ))) (sun : Option (Series SunTimes)) (c : MeanCourse ℝ) (hm : ∀ i : Nat, i < n → monthOf (at00 (d0 + i)) ∈ c.months)
    (hh : c.hours = (List.range 24).map fun k : Nat => (k : Int)) (hnorm : ∀ i < n, Normalized c (monthOf (at00 (d0 + (i : Nat))))) {out : Series (XF ℝ)}
    (hret : disaggregateTemperature api daily "mean_course_mean" mmt modNight md (some c) sun = .ok out) (m : Int)
    (hmv : ∃ i < n, monthOf (at00 (d0 + (i : Nat))) = m ∧ ∃ a b t, tmin i = .fin a ∧ tmax i = .fin b ∧ temp i = .fin t ∧ a < b) :
    m ∈ (meanDailyCourseByMonth out true).months ∧
    ∀ h : Nat, h < 24 → (h : Int) ∈ (meanDailyCourseByMonth out true).hours ∧ (meanDailyCourseByMonth out true).val m h = c.val m h := by
  have hh' : ∀ h : Nat, h < 24 → (h : Int) ∈ c.hours := by
    intro h h24
    rw [hh]
    exact List.mem_map.2 ⟨h, List.mem_range.2 h24, rfl⟩
  rw [courseMean_eq api hd hn mmt modNight md sun hm hh'] at hret
  injection hret with hret
  subst hret
  have mean : ∀ i < n, ∃ μ : ℝ, meanSkip (c.column (monthOf (at00 (d0 + (i : Nat))))) = .fin μ := by
    intro i hi'
    obtain ⟨q, hq, _⟩ := normalized_values (hnorm i hi')
    refine ⟨(day24 q).sum / 24, ?_⟩
    rw [← meanSkip_day24 hq]
    unfold MeanCourse.column day24
    rw [hh, List.map_map]
    rfl
  obtain ⟨j, hj, rfl, a, b, t, ea, eb, et, hab⟩ := hmv
  refine ⟨months_hourlyS hj, fun h h24 => ⟨(hours_hourlyS hn _ h).1.2 h24, ?_⟩⟩
  obtain ⟨q, hq, q1, q2, q3⟩ := normalized_values (hnorm j hj)
  obtain ⟨μ, hμ⟩ := mean j hj
  rw [hq h h24]
  refine refit_course ?_ ?_ ⟨j, hj, rfl, t - (b - a) * μ, b - a, by linarith, fun k hk => ?_⟩ q1 q2 q3 h24
  · intro i hi' k hk
    obtain ⟨y, hy, _⟩ := (hnorm i hi').range k hk
    obtain ⟨ν, hν⟩ := mean i hi'
    obtain ⟨⟨h1, h2, h3⟩, _⟩ := hv i hi'
    rw [hy, hν]
    revert h1 h2 h3
    cases tmin i <;> cases tmax i <;> cases temp i <;> simp
  · intro i hi' e
    obtain ⟨⟨h1, h2, h3⟩, h4⟩ := hv i hi'
    rw [e, hμ]
    cases e1 : tmin i with
    | nan => left; intro k hk; simp
    | fin a =>
      cases e2 : tmax i with
      | nan => left; intro k hk; simp
      | fin b =>
        cases e3 : temp i with
        | nan => left; intro k hk; simp
        | fin t =>
          right
          refine ⟨t - (b - a) * μ, b - a, by linarith [h4 a b e1 e2], fun k hk => ?_⟩
          rw [hq k hk, XF.fin_sub_fin, XF.fin_sub_fin, XF.fin_mul_fin, XF.fin_add_fin]
          congr 1
          ring
        | pinf => simp [e3] at h3
        | ninf => simp [e3] at h3
      | pinf => simp [e2] at h2
      | ninf => simp [e2] at h2
    | pinf => simp [e1] at h1
    | ninf => simp [e1] at h1
  · rw [hq k hk, hμ, ea, eb, et, XF.fin_sub_fin, XF.fin_sub_fin, XF.fin_mul_fin, XF.fin_add_fin]
    congr 1
    ring

/-! ## radiation -/

/-- sums over days that are either missing or multiples of the same course -/
theorem scaled_days (f : Nat → Nat → XF ℝ) (c : Nat → ℝ) (l : List Nat)
    (hl : ∀ i ∈ l, (∀ h < 24, f i h = .nan) ∨ ∃ y : ℝ, 0 ≤ y ∧ ∀ h < 24, f i h = .fin (c h * y)) :
    ∃ (N : Nat) (Y : ℝ), 0 ≤ Y ∧ (∀ h < 24, (numbers (l.map fun i => f i h)).length = N ∧ (numbers (l.map fun i => f i h)).sum = c h * Y) ∧
      ((∃ i ∈ l, ∃ y : ℝ, 0 < y ∧ ∀ h < 24, f i h = .fin (c h * y)) → (∃ h < 24, c h ≠ 0) → 0 < N ∧ 0 < Y) := by
  induction l with
  | nil => exact ⟨0, 0, le_refl _, fun h _ => by simp [numbers], by rintro ⟨i, hi, _⟩; cases hi⟩
  | cons i l ih =>
    obtain ⟨N, Y, h0, h1, h2⟩ := ih fun j hj => hl j (List.mem_cons_of_mem _ hj)
    rcases hl i List.mem_cons_self with hn | ⟨y, hy, hx⟩
    · refine ⟨N, Y, h0, fun h hh => ?_, ?_⟩
      · rw [List.map_cons, hn h hh, numbers_cons_nan]
        exact h1 h hh
      · rintro ⟨j, hj, y, hy, he⟩ hc
        rcases List.mem_cons.1 hj with rfl | hj
        · have := (hn 0 (by decide)).symm.trans (he 0 (by decide))
          cases this
        · exact h2 ⟨j, hj, y, hy, he⟩ hc
    · refine ⟨N + 1, y + Y, add_nonneg hy h0, fun h hh => ?_, ?_⟩
      · rw [List.map_cons, hx h hh, numbers_cons_fin, List.length_cons, List.sum_cons, (h1 h hh).1, (h1 h hh).2]
        exact ⟨rfl, by ring⟩
      · rintro ⟨j, hj, y', hy', he⟩ ⟨a, ha, hca⟩
        refine ⟨Nat.succ_pos _, ?_⟩
        rcases List.mem_cons.1 hj with rfl | hj
        · have e1 := XF.fin.inj ((hx a ha).symm.trans (he a ha))
          have : y = y' := mul_left_cancel₀ hca e1
          rw [this]
          exact add_pos_of_pos_of_nonneg hy' h0
        · exact add_pos_of_nonneg_of_pos hy (h2 ⟨j, hj, y', hy', he⟩ ⟨a, ha, hca⟩).2

/-- the mean course of a month whose days are multiples of one course is a multiple of it -/
theorem refit_scaled {f : Nat → Nat → XF ℝ} {m : Int} {c : Nat → ℝ}
    (hm : ∀ i < n, monthOf (at00 (d0 + (i : Nat))) = m → (∀ h < 24, f i h = .nan) ∨ ∃ y : ℝ, 0 ≤ y ∧ ∀ h < 24, f i h = .fin (c h * y))
    (hpos : ∃ i < n, monthOf (at00 (d0 + (i : Nat))) = m ∧ ∃ y : ℝ, 0 < y ∧ ∀ h < 24, f i h = .fin (c h * y)) (hc : ∃ h < 24, c h ≠ 0) :
    ∃ κ : ℝ, 0 < κ ∧ ∀ h : Nat, h < 24 → (meanDailyCourseByMonth (hourlyS d0 n f)).val m h = .fin (κ * c h) := by
  obtain ⟨N, Y, h0, h1, h2⟩ := scaled_days f c (daysIn d0 n m) fun i hi => hm i (mem_daysIn.1 hi).1 (mem_daysIn.1 hi).2
  obtain ⟨i, hi, him, hex⟩ := hpos
  obtain ⟨hN, hY⟩ := h2 ⟨i, mem_daysIn.2 ⟨hi, him⟩, hex⟩ hc
  have hN' : (0 : ℝ) < N := by exact_mod_cast hN
  refine ⟨Y / N, div_pos hY hN', fun h hh => ?_⟩
  rw [raw_val_eq, obsOf_hourlyS d0 n f m hh, meanSkip_eq, (h1 h hh).1, (h1 h hh).2]
  · congr 1
    ring
  · intro x hx
    obtain ⟨j, hj, rfl⟩ := List.mem_map.1 hx
    rcases hm j (mem_daysIn.1 hj).1 (mem_daysIn.1 hj).2 with h | ⟨y, _, h⟩
    · rw [h _ hh]; trivial
    · rw [h _ hh]; trivial
  · intro e
    have := (h1 h hh).1
    rw [e] at this
    simp at this
    omega

/-- **C120** (radiation, mean_course) The hourly radiation of 'mean_course', taken as observations: if no positive share of a day is below 0.01 W/m², the mean course of every month with
some radiation is a positive multiple of the one that was used (its scale is that of the data). -/
theorem C120_radiation (api : PandasApi) (hi : daily.index = (List.range n).map fun i : Nat => at00 (d0 + i)) (hn : 0 < n)
    {v : Nat → XF ℝ} (hg : daily.col? "glob" = some (dailyS d0 n v)) {c : MeanCourse ℝ} (hcov : Covers c d0 n) {q : Int → Nat → ℝ}
    (hcq : ∀ i < n, ∀ h < 24, c.val (monthOf (at00 (d0 + (i : Nat)))) (h : Nat) = .fin (q (monthOf (at00 (d0 + (i : Nat)))) h))
    (hq : ∀ i < n, (∀ h < 24, 0 ≤ q (monthOf (at00 (d0 + (i : Nat)))) h) ∧ 0 < (day24 (q (monthOf (at00 (d0 + (i : Nat)))))).sum)
    (hv : ∀ i < n, v i = .nan ∨ ∃ g, v i = .fin g ∧ 0 ≤ g ∧ ∀ h < 24, q (monthOf (at00 (d0 + (i : Nat)))) h = 0 ∨ g = 0 ∨
      0.01 ≤ q (monthOf (at00 (d0 + (i : Nat)))) h / ((day24 (q (monthOf (at00 (d0 + (i : Nat)))))).sum / 24) * g)
    (sun : Option (Series SunTimes)) (pot : Option (Series (XF ℝ))) (angstr bristcamp : ParPair ℝ) {out : Series (XF ℝ)}
    (hret : disaggregateRadiation api daily sun pot "mean_course" angstr bristcamp (some c) = .ok out) (m : Int)
    (hm : ∃ i < n, monthOf (at00 (d0 + (i : Nat))) = m ∧ ∃ g, v i = .fin g ∧ 0 < g) :
    m ∈ (meanDailyCourseByMonth out).months ∧ (∀ h : Nat, h < 24 → (h : Int) ∈ (meanDailyCourseByMonth out).hours) ∧
    ∃ κ : ℝ, 0 < κ ∧ ∀ h : Nat, h < 24 → (meanDailyCourseByMonth out).val m h = .fin (κ * q m h) := by
  rw [meanCourseRad_eq api hi hn hg sun pot angstr bristcamp hcov.months hcov.hours] at hret
  injection hret with hret
  subst hret
  obtain ⟨j, hj, rfl, g, eg, hgp⟩ := hm
  refine ⟨months_hourlyS hj, fun h hh => (hours_hourlyS hn _ h).1.2 hh, ?_⟩
  obtain ⟨q0, qs⟩ := hq j hj
  have cell : ∀ i < n, monthOf (at00 (d0 + (i : Nat))) = monthOf (at00 (d0 + (j : Nat))) → ∀ g, v i = .fin g → 0 ≤ g → ∀ h < 24,
      radCell (c.val (monthOf (at00 (d0 + (i : Int)))) (h : Nat)) (meanSkip (day24 fun h : Nat => c.val (monthOf (at00 (d0 + (i : Int)))) h)) (v i) =
        .fin (q (monthOf (at00 (d0 + (j : Nat)))) h * (g / ((day24 (q (monthOf (at00 (d0 + (j : Nat)))))).sum / 24))) := by
    intro i hi' e g hgi _ h hh
    rw [meanSkip_day24 (hcq i hi'), hcq i hi' h hh, hgi, radCell_fin (by rw [e]; positivity), e]
    congr 1
    rcases hv i hi' with h' | ⟨g', e', _, h'⟩
    · rw [hgi] at h'; cases h'
    · obtain rfl : g = g' := XF.fin.inj (hgi.symm.trans e')
      have := h' h hh
      rw [e] at this
      rcases this with h1 | h1 | h1
      · rw [h1]; simp
      · rw [h1]; simp
      · rw [if_neg (not_lt.2 h1)]
        ring
  refine refit_scaled ?_ ⟨j, hj, rfl, _, div_pos hgp (by positivity), cell j hj rfl g eg hgp.le⟩ ?_
  · intro i hi' e
    rcases hv i hi' with h | ⟨g, h1, h2, _⟩
    · left
      intro k hk
      rw [h]
      unfold radCell
      simp
    · right
      exact ⟨_, div_nonneg h2 (by positivity), cell i hi' e g h1 h2⟩
  · by_contra hne
    push_neg at hne
    have : (day24 (q (monthOf (at00 (d0 + (j : Nat)))))).sum = 0 := by
      apply List.sum_eq_zero
      intro x hx
      obtain ⟨k, hk, rfl⟩ := mem_day24.1 hx
      exact hne k hk
    linarith

/-- **C120** (radiation, use) Disaggregating any daily radiation of these months with the fitted table gives the same hourly values as with the original one. -/
theorem C120_radiation_use (api : PandasApi) (hi : daily.index = (List.range n).map fun i : Nat => at00 (d0 + i)) (hn : 0 < n)
    {v : Nat → XF ℝ} (hg : daily.col? "glob" = some (dailyS d0 n v)) {c : MeanCourse ℝ} (hcov : Covers c d0 n) {q : Int → Nat → ℝ}
    (hcq : ∀ i < n, ∀ h < 24, c.val (monthOf (at00 (d0 + (i : Nat)))) (h : Nat) = .fin (q (monthOf (at00 (d0 + (i : Nat)))) h))
    (hq : ∀ i < n, (∀ h < 24, 0 ≤ q (monthOf (at00 (d0 + (i : Nat)))) h) ∧ 0 < (day24 (q (monthOf (at00 (d0 + (i : Nat)))))).sum)
    (hv : ∀ i < n, v i = .nan ∨ ∃ g, v i = .fin g ∧ 0 ≤ g ∧ ∀ h < 24, q (monthOf (at00 (d0 + (i : Nat)))) h = 0 ∨ g = 0 ∨
      0.01 ≤ q (monthOf (at00 (d0 + (i : Nat)))) h / ((day24 (q (monthOf (at00 (d0 + (i : Nat)))))).sum / 24) * g)
    (sun : Option (Series SunTimes)) (pot : Option (Series (XF ℝ))) (angstr bristcamp : ParPair ℝ) {out : Series (XF ℝ)}
    (hret : disaggregateRadiation api daily sun pot "mean_course" angstr bristcamp (some c) = .ok out)
    {daily' : Frame ℝ} {d1 : Int} {n' : Nat} (hn' : 0 < n') {w : Nat → XF ℝ} (hi' : daily'.index = (List.range n').map fun i : Nat => at00 (d1 + i))
    (hg' : daily'.col? "glob" = some (dailyS d1 n' w))
    (hm : ∀ k < n', ∃ i < n, monthOf (at00 (d0 + (i : Nat))) = monthOf (at00 (d1 + (k : Nat))) ∧ ∃ g, v i = .fin g ∧ 0 < g)
    (sun' : Option (Series SunTimes)) (pot' : Option (Series (XF ℝ))) (angstr' bristcamp' : ParPair ℝ) :
    disaggregateRadiation api daily' sun' pot' "mean_course" angstr' bristcamp' (some (meanDailyCourseByMonth out)) =
      disaggregateRadiation api daily' sun' pot' "mean_course" angstr' bristcamp' (some c) := by
  have key := fun k hk => C120_radiation api hi hn hg hcov hcq hq hv sun pot angstr bristcamp hret (monthOf (at00 (d1 + (k : Nat)))) (hm k hk)
  have cm : ∀ k < n', monthOf (at00 (d1 + (k : Nat))) ∈ c.months := by
    intro k hk
    obtain ⟨i, hin, e, _⟩ := hm k hk
    rw [← e]
    exact hcov.months i hin
  rw [meanCourseRad_eq api hi' hn' hg' sun' pot' angstr' bristcamp' cm hcov.hours,
    meanCourseRad_eq api hi' hn' hg' sun' pot' angstr' bristcamp' (fun k hk => (key k hk).1) (key 0 hn').2.1]
  refine congrArg _ (hourlyS_congr d1 fun k hk h hh => ?_)
  obtain ⟨_, _, κ, hκ, hval⟩ := key k hk
  obtain ⟨i, hin, e, _⟩ := hm k hk
  have hc' : ∀ h : Nat, h < 24 → c.val (monthOf (at00 (d1 + (k : Nat)))) h = .fin (q (monthOf (at00 (d1 + (k : Nat)))) h) := by
    intro h hh
    rw [← e]
    exact hcq i hin h hh
  have qs := (hq i hin).2
  rw [e] at qs
  rw [meanSkip_day24 (q := fun h => κ * q (monthOf (at00 (d1 + (k : Nat)))) h) hval, meanSkip_day24 (q := q (monthOf (at00 (d1 + (k : Nat))))) hc', hval h hh, hc' h hh, sum_day24_mul]
  unfold radCell
  have : (XF.fin (κ * q (monthOf (at00 (d1 + (k : Nat)))) h) / XF.fin (κ * (day24 (q (monthOf (at00 (d1 + (k : Nat)))))).sum / 24) : XF ℝ) =
      XF.fin (q (monthOf (at00 (d1 + (k : Nat)))) h) / XF.fin ((day24 (q (monthOf (at00 (d1 + (k : Nat)))))).sum / 24) := by
    rw [XF.fin_div_fin_of_ne _ (by positivity), XF.fin_div_fin_of_ne _ (by positivity)]
    congr 1
    field_simp
  rw [this]

/-- **C120** (radiation, the cut) An hour whose share is below 0.01 W/m² on all days of the month gets 0 in the fitted table. -/
theorem C120_radiation_cut (api : PandasApi) (hi : daily.index = (List.range n).map fun i : Nat => at00 (d0 + i)) (hn : 0 < n)
    {v : Nat → XF ℝ} (hg : daily.col? "glob" = some (dailyS d0 n v)) {c : MeanCourse ℝ} (hcov : Covers c d0 n) {m : Int} {q : Nat → ℝ}
    (hcq : ∀ h : Nat, h < 24 → c.val m h = .fin (q h)) (hq : 0 < (day24 q).sum) {h : Nat} (hh : h < 24)
    (hv : ∀ i < n, monthOf (at00 (d0 + (i : Nat))) = m → v i = .nan ∨ ∃ g, v i = .fin g ∧ q h / ((day24 q).sum / 24) * g < 0.01)
    (hex : ∃ i < n, monthOf (at00 (d0 + (i : Nat))) = m ∧ v i ≠ .nan)
    (sun : Option (Series SunTimes)) (pot : Option (Series (XF ℝ))) (angstr bristcamp : ParPair ℝ) {out : Series (XF ℝ)}
    (hret : disaggregateRadiation api daily sun pot "mean_course" angstr bristcamp (some c) = .ok out) :
    (meanDailyCourseByMonth out).val m h = .fin 0 := by
  rw [meanCourseRad_eq api hi hn hg sun pot angstr bristcamp hcov.months hcov.hours] at hret
  injection hret with hret
  subst hret
  rw [raw_val_eq, obsOf_hourlyS d0 n _ m hh]
  have cells : ∀ i ∈ daysIn d0 n m,
      radCell (c.val (monthOf (at00 (d0 + (i : Int)))) (h : Nat)) (meanSkip (day24 fun h : Nat => c.val (monthOf (at00 (d0 + (i : Int)))) h)) (v i) =
        if v i = .nan then .nan else .fin 0 := by
    intro i hi'
    obtain ⟨h1, h2⟩ := mem_daysIn.1 hi'
    rw [h2, meanSkip_day24 hcq, hcq h hh]
    rcases hv i h1 h2 with e | ⟨g, e, hlt⟩
    · rw [e, if_pos rfl]
      unfold radCell
      simp
    · rw [e, if_neg (by simp), radCell_fin (by positivity), if_pos hlt]
  rw [List.map_congr_left cells]
  have nums : ∀ x ∈ numbers ((daysIn d0 n m).map fun i => if v i = .nan then (XF.nan : XF ℝ) else .fin 0), x = 0 := by
    intro x hx
    rw [mem_numbers] at hx
    obtain ⟨i, _, e⟩ := List.mem_map.1 hx
    split at e
    · cases e
    · exact (XF.fin.inj e).symm
  rw [meanSkip_eq, List.sum_eq_zero nums]
  · simp
  · intro x hx
    obtain ⟨i, _, rfl⟩ := List.mem_map.1 hx
    split <;> trivial
  · obtain ⟨i, h1, h2, h3⟩ := hex
    apply List.ne_nil_of_mem (a := (0 : ℝ))
    rw [mem_numbers]
    exact List.mem_map.2 ⟨i, mem_daysIn.2 ⟨h1, h2⟩, if_neg h3⟩

/-! ## humidity -/

/-- the mean of equal cells -/
theorem meanSkip_same {l : List (XF ℝ)} {x : XF ℝ} (hx : x.NanOrFin) (hl : ∀ c ∈ l, c = x) (hne : l ≠ []) : meanSkip l = x := by
  cases x with
  | nan => exact meanSkip_nan hl
  | fin y =>
    have e : l = (List.replicate l.length y).map XF.fin := by
      rw [List.map_replicate]
      exact List.eq_replicate_of_mem hl
    have hlen : (l.length : ℝ) ≠ 0 := by
      have := List.length_pos_iff.2 hne
      positivity
    rw [e, meanSkip_eq (nanOrFin_map_fin _), numbers_map_fin]
    · rw [List.sum_replicate, List.length_replicate, nsmul_eq_mul, mul_div_cancel_left₀ _ hlen]
    · rw [numbers_map_fin]
      intro h
      have := congrArg List.length h
      simp at this
      exact hne this
  | pinf => simp at hx
  | ninf => simp at hx

theorem clip_nanOrFin (x : XF ℝ) : (x.clip 0 100).NanOrFin := by
  cases x with
  | nan => trivial
  | fin y => trivial
  | pinf => unfold XF.clip; simp [XF.lt]
  | ninf => unfold XF.clip; simp [XF.lt]

/-- **C120** (humidity, month_hour_precip_mean) The hourly humidity of 'month_hour_precip_mean', taken as observations together with an hourly precipitation that is wet on the same days:
`calculate_month_hour_precip_mean` gives exactly the categories that occur, each with the value that was used (limited to [0, 100]). -/
theorem C120_humidity (api : PandasApi) (daily : Frame ℝ) (temp : Option (Series (XF ℝ))) (a0 a1 kr : Option ℝ) (table : CatMeans ℝ)
    (d0 : Int) (n : Nat) (hn : 0 < n) (precip : Nat → XF ℝ) (hp : daily.col? "precip" = some (dailyS d0 n precip))
    (hnod : (table.map Prod.fst).Nodup) (wet : Nat → Bool)
    (hwet : ∀ i < n, (precip i).NanOrFin ∧ (wet i = true ↔ ∃ x, precip i = .fin x ∧ 0 < x)) {out : Series (XF ℝ)}
    (hret : disaggregateHumidity api daily "month_hour_precip_mean" temp a0 a1 kr (some table) = .ok out)
    {obs : Frame ℝ} (hwf : obs.WF) (h1 : obs.col? "hum" = some out) {pr : Series (XF ℝ)} (h2 : obs.col? "precip" = some pr) (hpr : ∀ r ∈ pr, r.2.NanOrFin)
    (hsame : ∀ i < n, 0 < (numbers (dayCells pr (d0 + (i : Nat)))).sum ↔ wet i = true) :
    let category := fun i h : Nat => (monthOf (atHour (d0 + i) h), (h : Int), wet i)
    ∃ table', monthHourPrecipMean obs = .ok table' ∧ (table'.map Prod.fst).Nodup ∧ (∀ k, k ∈ table'.map Prod.fst ↔ ∃ i < n, ∃ h < 24, k = category i h) ∧
      ∀ i < n, ∀ h < 24, ∀ x, (category i h, x) ∈ table → (category i h, x.clip 0 100) ∈ table' := by
  intro category
  obtain ⟨c41, c41'⟩ := C41_categorical api daily temp a0 a1 kr table d0 n hn precip hp hnod wet hwet
  have hall : ∀ i < n, ∀ h < 24, category i h ∈ table.map Prod.fst := by
    by_contra hne
    push_neg at hne
    rw [c41' hne false] at hret
    cases hret
  obtain ⟨out', e', hcells⟩ := c41 hall
  rw [hret] at e'
  obtain rfl := Except.ok.inj e'
  -- the rows of the result
  have hout : ∃ F, out = hourlyS d0 n F := by
    have hfind : ∀ i < n, ∀ h < 24, ∃ r, table.find? (fun r => r.1 == catKey d0 precip i h) = some r := by
      intro i hi h hh
      cases hf : table.find? (fun r => r.1 == catKey d0 precip i h) with
      | some r => exact ⟨r, rfl⟩
      | none =>
        have := raw_cat_missing api daily temp a0 a1 kr table d0 n hn precip hp ⟨i, hi, h, hh, hf⟩
        unfold disaggregateHumidity at hret
        rw [this] at hret
        cases hret
    have hraw := raw_cat api daily temp a0 a1 kr table d0 n hn precip hp
      (fun i h => ((table.find? (fun r => r.1 == catKey d0 precip i h)).map Prod.snd).getD .nan) (by
        intro i hi h hh
        obtain ⟨r, hr⟩ := hfind i hi h hh
        exact ⟨r, hr, by rw [hr]; rfl⟩)
    rw [(hum_finish hraw).1] at hret
    exact ⟨_, (Except.ok.inj hret).symm⟩
  obtain ⟨F, rfl⟩ := hout
  have hF : ∀ i < n, ∀ h < 24, ∀ x, (category i h, x) ∈ table → F i h = x.clip 0 100 := by
    intro i hi h hh x hx
    have := hcells i hi h hh x hx
    rw [dayCells_hourlyS d0 _ hi, day24_getElem? _ hh] at this
    exact Option.some.inj this
  have hex : ∀ i < n, ∀ h < 24, ∃ x, (category i h, x) ∈ table := by
    intro i hi h hh
    obtain ⟨r, hr, e⟩ := List.mem_map.1 (hall i hi h hh)
    exact ⟨r.2, by rw [← e]; exact hr⟩
  have hnum : ∀ r ∈ hourlyS d0 n F, r.2.NanOrFin := by
    intro r hr
    obtain ⟨i, hi, h, hh, rfl⟩ := mem_hourlyS_val hr
    obtain ⟨x, hx⟩ := hex i hi h hh
    show (F i h).NanOrFin
    rw [hF i hi h hh x hx]
    exact clip_nanOrFin x
  -- membership in a category
  have hmem : ∀ m k w c, c ∈ catObs (hourlyS d0 n F) pr m k w ↔ ∃ i < n, ∃ h < 24, (m, k, w) = category i h ∧ c = F i h := by
    intro m k w c
    unfold catObs
    rw [List.mem_map]
    constructor
    · rintro ⟨r, hr, rfl⟩
      obtain ⟨hr, hp⟩ := List.mem_filter.1 hr
      obtain ⟨i, hi, h, hh, rfl⟩ := mem_hourlyS_val hr
      obtain ⟨p1, p2, p3⟩ := of_decide_eq_true hp
      refine ⟨i, hi, h, hh, ?_, rfl⟩
      have e1 : atHour (d0 + (i : Nat)) h % 86400000000 / 3600000000 = (h : Int) := by unfold atHour; omega
      have e2 : atHour (d0 + (i : Nat)) h / 86400000000 = d0 + (i : Nat) := by unfold atHour; omega
      simp only [category]
      dsimp only at p1 p2 p3
      rw [e1] at p2
      rw [e2, hsame i hi] at p3
      rw [p1, p2]
      congr 2
      rw [Bool.eq_iff_iff, p3]
    · rintro ⟨i, hi, h, hh, e, rfl⟩
      simp only [category, Prod.mk.injEq] at e
      obtain ⟨e1, e2, e3⟩ := e
      refine ⟨(atHour (d0 + (i : Nat)) h, F i h), List.mem_filter.2 ⟨?_, decide_eq_true ⟨e1.symm, ?_, ?_⟩⟩, rfl⟩
      · unfold hourlyS
        rw [List.mem_map]
        refine ⟨24 * i + h, List.mem_range.2 (by omega), ?_⟩
        rw [show (24 * i + h) / 24 = i by omega, show (24 * i + h) % 24 = h by omega]
      · show atHour (d0 + (i : Nat)) h % 86400000000 / 3600000000 = k
        rw [e2]
        unfold atHour
        omega
      · show (0 < (numbers (dayCells pr (atHour (d0 + (i : Nat)) h / 86400000000))).sum ↔ w = true)
        rw [show atHour (d0 + (i : Nat)) h / 86400000000 = d0 + (i : Nat) by unfold atHour; omega, hsame i hi, e3]
  have e := table_eq hwf h1 h2 hpr
  obtain ⟨table', t1, t2, t3, t4⟩ := C41_table obs hwf _ pr h1 h2 hnum hpr
  rw [e] at t1
  obtain rfl := Except.ok.inj t1
  refine ⟨_, e, t2, ?_, ?_⟩
  · rintro ⟨m, k, w⟩
    rw [t3 m k w]
    constructor
    · intro hne
      obtain ⟨c, hc⟩ := List.exists_mem_of_ne_nil _ hne
      obtain ⟨i, hi, h, hh, e, _⟩ := (hmem m k w c).1 hc
      exact ⟨i, hi, h, hh, e⟩
    · rintro ⟨i, hi, h, hh, e⟩
      exact List.ne_nil_of_mem ((hmem m k w (F i h)).2 ⟨i, hi, h, hh, e, rfl⟩)
  · intro i hi h hh x hx
    have hin : F i h ∈ catObs (hourlyS d0 n F) pr (category i h).1 (category i h).2.1 (category i h).2.2 :=
      (hmem _ _ _ _).2 ⟨i, hi, h, hh, rfl, rfl⟩
    have hk := (t3 (category i h).1 (category i h).2.1 (category i h).2.2).2 (List.ne_nil_of_mem hin)
    rw [List.map_map] at hk
    obtain ⟨k, hk1, hk2⟩ := List.mem_map.1 hk
    have hk2 : k = category i h := hk2
    rw [List.mem_map]
    refine ⟨k, hk1, ?_⟩
    rw [hk2]
    congr 1
    refine meanSkip_same (clip_nanOrFin x) ?_ (List.ne_nil_of_mem hin)
    intro c hc
    obtain ⟨i', hi', h', hh', e, rfl⟩ := (hmem _ _ _ _).1 hc
    apply hF i' hi' h' hh'
    rw [← e]
    exact hx

/-! ## the shift of the maximum -/

theorem rows_of_day {V : Type} (f : Nat → Nat → V) {i : Nat} (hi : i < n) :
    (hourlyS d0 n f).filter (fun r => decide (r.1 / 86400000000 = d0 + (i : Int))) = (List.range 24).map fun h => (atHour (d0 + (i : Int)) h, f i h) := by
  unfold hourlyS
  rw [List.filter_map]
  have : ((fun r : Time × V => decide (r.1 / 86400000000 = d0 + (i : Int))) ∘
      fun k : Nat => (atHour (d0 + (k / 24 : Nat)) (k % 24), f (k / 24) (k % 24))) =
      fun k => decide (k / 24 = i) := by
    funext k
    simp only [Function.comp_def]
    rw [decide_eq_decide]
    unfold atHour; omega
  rw [this, filter_range_block n i hi, List.map_map]
  apply List.map_congr_left
  intro k hk
  have := List.mem_range.1 hk
  simp only [Function.comp_def]
  rw [show (24 * i + k) / 24 = i by omega, show (24 * i + k) % 24 = k by omega]

theorem range24_split {p : Nat} (hp : p < 24) : List.range 24 = List.range p ++ p :: (List.range (23 - p)).map fun k => p + 1 + k := by
  interval_cases p <;> rfl

/-- the first maximum of a day with known values -/
theorem firstMax_of {f : Nat → Nat → XF ℝ} {i : Nat} (hi : i < n) {v : Nat → ℝ} (hv : ∀ h < 24, f i h = .fin (v h)) {p : Nat} (hp : p < 24)
    (h1 : ∀ h < p, v h < v p) (h2 : ∀ h < 24, p < h → v h ≤ v p) : FirstMaxAt (hourlyS d0 n f) (d0 + (i : Int)) p := by
  refine ⟨(List.range p).map fun h => (atHour (d0 + (i : Int)) h, f i h), (atHour (d0 + (i : Int)) p, f i p),
    ((List.range (23 - p)).map fun k => p + 1 + k).map fun h => (atHour (d0 + (i : Int)) h, f i h), v p, ?_, ?_, hv p hp, ?_, ?_⟩
  · rw [rows_of_day f hi, range24_split hp, List.map_append, List.map_cons]
  · show atHour (d0 + (i : Int)) p % 86400000000 / 3600000000 = (p : Int)
    unfold atHour; omega
  · intro y hy
    rw [mem_numbers_iff, List.map_map] at hy
    obtain ⟨h, hh, e⟩ := List.mem_map.1 hy
    have hh := List.mem_range.1 hh
    have e : f i h = .fin y := e
    rw [hv h (by omega)] at e
    rw [← XF.fin.inj e]
    exact h1 h hh
  · intro y hy
    rw [mem_numbers_iff, List.map_map, List.map_map] at hy
    obtain ⟨k, hk, e⟩ := List.mem_map.1 hy
    have hk := List.mem_range.1 hk
    have e : f i (p + 1 + k) = .fin y := e
    rw [hv _ (by omega)] at e
    rw [← XF.fin.inj e]
    exact h2 _ (by omega) (by omega)

/-- the mean of numbers within 1/2 of `s` -/
theorem mean_near {α : Type} (l : List α) (x : α → ℝ) (s : ℝ) (hl : l ≠ []) (h : ∀ a ∈ l, |x a - s| ≤ 1 / 2) : |(l.map x).sum / l.length - s| ≤ 1 / 2 := by
  have hpos : (0 : ℝ) < l.length := by
    have := List.length_pos_iff.2 hl
    exact_mod_cast this
  have key : ∀ l : List α, (∀ a ∈ l, |x a - s| ≤ 1 / 2) → |(l.map x).sum - l.length * s| ≤ l.length * (1 / 2) := by
    intro l
    induction l with
    | nil => intro _; simp
    | cons a l ih =>
      intro h
      have h1 := h a List.mem_cons_self
      have h2 := ih fun b hb => h b (List.mem_cons_of_mem _ hb)
      rw [List.map_cons, List.sum_cons, List.length_cons]
      push_cast
      rw [abs_le] at h1 h2 ⊢
      constructor <;> linarith [h1.1, h1.2, h2.1, h2.2]
  have := key l h
  rw [show (l.map x).sum / l.length - s = ((l.map x).sum - l.length * s) / l.length by field_simp, abs_div, abs_of_pos hpos, div_le_iff₀ hpos]
  linarith

/-- days whose first maximum is within half an hour of noon plus `s` -/
theorem shift_near {f : Nat → Nat → XF ℝ} (hf : ∀ i < n, ∀ h < 24, (f i h).NanOrFin) {lon lat tz : ℝ} {noon : Int → ℝ}
    (hnoon : ∀ d, (sunTimesDoy (doyOf (at00 d)) lon lat tz).sunnoon = .fin (noon d)) {m : Int} {s : ℝ} (hex : ∃ i < n, monthOf (at00 (d0 + (i : Nat))) = m)
    (hday : ∀ i < n, monthOf (at00 (d0 + (i : Nat))) = m → (∃ y, f i 0 = .fin y) ∧ ∃ p : Nat, p < 24 ∧ FirstMaxAt (hourlyS d0 n f) (d0 + (i : Int)) p ∧
      |(p : ℝ) - noon (d0 + (i : Int)) - s| ≤ 1 / 2) :
    ∃ y, (m, XF.fin y) ∈ getShiftByData (hourlyS d0 n f) lon lat tz ∧ |y - s| ≤ 1 / 2 := by
  have hs : ∀ r ∈ hourlyS d0 n f, r.2.NanOrFin := by
    intro r hr
    obtain ⟨i, hi, k, hk, rfl⟩ := mem_hourlyS_val hr
    exact hf i hi k hk
  obtain ⟨_, c2, c3⟩ := C53_shift (hourlyS d0 n f) hs lon lat tz noon hnoon
  obtain ⟨j, hj, hjm⟩ := hex
  have idx : ∀ i < n, atHour (d0 + (i : Nat)) 0 ∈ Series.index (hourlyS d0 n f) := fun i hi =>
    (mem_hourlyS_index d0 n f _).2 ⟨i, hi, 0, by decide, rfl⟩
  have hmem : m ∈ (getShiftByData (hourlyS d0 n f) lon lat tz).map Prod.fst := by
    refine (c2 m).2 ⟨d0 + (j : Nat), hjm, ⟨_, idx j hj, ?_⟩, ⟨_, idx j hj, ?_⟩⟩ <;> (unfold atHour; omega)
  obtain ⟨⟨m', x⟩, hx, e⟩ := List.mem_map.1 hmem
  have e : m' = m := e
  subst e
  have hp : ∀ i : Nat, ∃ p : Nat, i < n → monthOf (at00 (d0 + (i : Nat))) = m' → p < 24 ∧ FirstMaxAt (hourlyS d0 n f) (d0 + (i : Int)) p ∧
      |(p : ℝ) - noon (d0 + (i : Int)) - s| ≤ 1 / 2 := by
    intro i
    by_cases h : i < n ∧ monthOf (at00 (d0 + (i : Nat))) = m'
    · obtain ⟨p, hp⟩ := (hday i h.1 h.2).2
      exact ⟨p, fun _ _ => hp⟩
    · exact ⟨0, fun h1 h2 => absurd ⟨h1, h2⟩ h⟩
  choose p hp using hp
  have hdays := c3 m' x hx ((daysIn d0 n m').map fun i : Nat => d0 + (i : Int)) (fun d => (p (d - d0).toNat : Int)) ?_ ?_ ?_
  · have hne : (daysIn d0 n m').map (fun i : Nat => d0 + (i : Int)) ≠ [] := by
      apply List.ne_nil_of_mem (a := d0 + (j : Int))
      exact List.mem_map.2 ⟨j, mem_daysIn.2 ⟨hj, hjm⟩, rfl⟩
    have hval := hdays.2 hne
    rw [hval] at hx
    refine ⟨_, hx, ?_⟩
    · apply mean_near _ _ _ hne
      intro d hd
      obtain ⟨i, hi, rfl⟩ := List.mem_map.1 hd
      obtain ⟨h1, h2⟩ := mem_daysIn.1 hi
      rw [show (d0 + (i : Int) - d0).toNat = i by omega]
      exact_mod_cast (hp i h1 h2).2.2
  · refine List.Nodup.map ?_ (List.Nodup.filter _ List.nodup_range)
    intro a b hab
    have : d0 + (a : Int) = d0 + (b : Int) := hab
    omega
  · intro d
    rw [List.mem_map]
    constructor
    · rintro ⟨i, hi, rfl⟩
      obtain ⟨h1, h2⟩ := mem_daysIn.1 hi
      obtain ⟨y, hy⟩ := (hday i h1 h2).1
      refine ⟨h2, (atHour (d0 + (i : Nat)) 0, f i 0), ?_, ?_, ?_⟩
      · unfold hourlyS
        rw [List.mem_map]
        refine ⟨24 * i, List.mem_range.2 (by omega), ?_⟩
        rw [show 24 * i / 24 = i by omega, show 24 * i % 24 = 0 by omega]
      · show atHour (d0 + (i : Nat)) 0 / 86400000000 = _
        unfold atHour; omega
      · show f i 0 ≠ .nan
        rw [hy]
        simp
    · rintro ⟨hm, r, hr, hd, _⟩
      obtain ⟨i, hi, k, hk, rfl⟩ := mem_hourlyS_val hr
      have : d = d0 + (i : Int) := by
        have hd : atHour (d0 + (i : Nat)) k / 86400000000 = d := hd
        unfold atHour at hd; omega
      subst this
      exact ⟨i, mem_daysIn.2 ⟨hi, hm⟩, rfl⟩
  · intro d hd
    obtain ⟨i, hi, rfl⟩ := List.mem_map.1 hd
    obtain ⟨h1, h2⟩ := mem_daysIn.1 hi
    rw [show (d0 + (i : Int) - d0).toNat = i by omega]
    exact (hp i h1 h2).2.1

theorem cos_hours_lt {h p : Nat} (hh : h < 24) (hp : p < 24) (hne : h ≠ p) : Real.cos (2 * Real.pi * ((h : ℝ) - p) / 24) < 1 := by
  refine lt_of_le_of_ne (Real.cos_le_one _) ?_
  intro e
  obtain ⟨k, hk⟩ := (Real.cos_eq_one_iff _).1 e
  have hpi := Real.pi_pos
  have : (24 * k : ℝ) = (h : ℝ) - p := by
    have : (k : ℝ) * (2 * Real.pi) * 24 = 2 * Real.pi * ((h : ℝ) - p) := by rw [hk]; ring
    have h2 : (2 * Real.pi) * (24 * k) = (2 * Real.pi) * ((h : ℝ) - p) := by linarith
    exact mul_left_cancel₀ (by positivity) h2
  have h3 : (24 * k : Int) = (h : Int) - p := by exact_mod_cast this
  omega

/-- the wave with maximum `M` and minimum `m` stays below any bound of both, strictly if the wave is not at its top or its maximum is below the bound -/
theorem wave_lt {M m B x : ℝ} (hm : m < B) (hM : M ≤ B) (hx : Real.cos x < 1) : (M + m) / 2 + (M - m) / 2 * Real.cos x < B := by
  have := Real.neg_one_le_cos x
  nlinarith

theorem wave_le {M m B x : ℝ} (hm : m ≤ B) (hM : M ≤ B) : (M + m) / 2 + (M - m) / 2 * Real.cos x ≤ B := by
  have := Real.neg_one_le_cos x
  have := Real.cos_le_one x
  nlinarith

/-- the hours of the maximum that the option `mmt` prescribes on day `d` of month `m`: the full hour `q` nearest to noon plus `s` (2 h after the full hour nearest to noon for 'sun_loc',
where `s` is 2; the shift of the month for 'sun_loc_shift'), not before the hour `lo` nearest to sunrise and before midnight -/
def Spec.PeaksAfterNoon (mmt : String) (md : Option (List (Int × XF ℝ))) (m : Int) (sunrise : XF ℝ) (noon s : ℝ) (lo : Int) (q : Nat) : Prop :=
  (∃ rise, sunrise = .fin rise ∧ Nearest lo rise) ∧ lo ≤ q ∧ q < 24 ∧
    ((mmt = "sun_loc" ∧ s = 2 ∧ Nearest ((q : Int) - 2) noon) ∨
      (mmt = "sun_loc_shift" ∧ ∃ tab, md = some tab ∧ tab.find? (fun r => r.1 == m) = some (m, .fin s) ∧ Nearest q (noon + s)))

theorem peaks_isLoc {mmt : String} {md : Option (List (Int × XF ℝ))} {sun : Series SunTimes} {t : Time} {st : SunTimes} {noon s : ℝ} {lo : Int} {q : Nat}
    (hs : sun.at? t = some st) (hn : st.sunnoon = .fin noon) (h : PeaksAfterNoon mmt md (monthOf t) st.sunrise noon s lo q) :
    IsLoc mmt md sun t lo q ∧ |(q : ℝ) - noon - s| ≤ 1 / 2 := by
  obtain ⟨⟨rise, h1, h2⟩, h3, h4, h5⟩ := h
  rcases h5 with ⟨rfl, rfl, h5⟩ | ⟨rfl, tab, h6, h7, h8⟩
  · refine ⟨.inr (.inl ⟨rfl, st, rise, noon, hs, h1, hn, h2, h5⟩), ?_⟩
    have := h5.1
    push_cast at this
    rwa [show (q : ℝ) - noon - 2 = (q : ℝ) - 2 - noon by ring]
  · refine ⟨.inr (.inr ⟨rfl, st, rise, noon, s, tab, q, hs, h1, hn, h2, h6, h7, h8, fun h => absurd h3 (by omega), fun _ => rfl⟩), ?_⟩
    have := h8.1
    push_cast at this
    rwa [show (q : ℝ) - noon - s = (q : ℝ) - (noon + s) by ring]

/-- **C120** (temperature, shift, sine_mean) The hourly temperature of 'sine_mean' with 'sun_loc' or 'sun_loc_shift', taken as observations: `get_shift_by_data` recovers the shift of the
maximum against noon (2 h for 'sun_loc', the tabulated shift for 'sun_loc_shift') up to half an hour, the hourly resolution. -/
theorem C120_shift_mean (api : PandasApi) {a b t : Nat → ℝ} (hd : TempDays daily d0 n (fun i => .fin (a i)) (fun i => .fin (b i)) (fun i => .fin (t i)))
    (hab : ∀ i < n, a i < b i) (mmt : String) (modNight : Bool) (md : Option (List (Int × XF ℝ))) (course : Option (MeanCourse ℝ)) (sun : Series SunTimes)
    {lon lat tz : ℝ} (hsun : ∀ i < n, sun.at? (at00 (d0 + (i : Nat))) = some (sunTimesDoy (doyOf (at00 (d0 + (i : Nat)))) lon lat tz)) {noon : Int → ℝ}
    (hnoon : ∀ d, (sunTimesDoy (doyOf (at00 d)) lon lat tz).sunnoon = .fin (noon d)) {out : Series (XF ℝ)}
    (hret : disaggregateTemperature api daily "sine_mean" mmt modNight md course (some sun) = .ok out) {m : Int} {s : ℝ}
    (hex : ∃ i < n, monthOf (at00 (d0 + (i : Nat))) = m)
    (hloc : ∀ i < n, monthOf (at00 (d0 + (i : Nat))) = m → ∃ lo q, PeaksAfterNoon mmt md m (sunTimesDoy (doyOf (at00 (d0 + (i : Nat)))) lon lat tz).sunrise (noon (d0 + (i : Nat))) s lo q) :
    ∃ y, (m, XF.fin y) ∈ getShiftByData out lon lat tz ∧ |y - s| ≤ 1 / 2 := by
  have hn : 0 < n := by obtain ⟨i, hi, _⟩ := hex; omega
  obtain ⟨_, lo', hi', _, _, _, hout, _⟩ := sine_inv hd hn (.inr (.inl rfl)) hret
  simp only [if_true] at hout
  have cell : ∀ i h, sineMeanCell h (locRow n (fun i => XF.fin (a i)) (fun i => .fin (b i)) (fun i => .fin (t i)) lo' hi' i) =
      .fin (t i + (b i - a i) / 2 * Real.cos (2 * Real.pi / 24 * ((h - hi' i : Int) : ℝ))) := by
    intro i h
    unfold sineMeanCell locRow
    dsimp only
    rw [XF.fin_sub_fin, XF.fin_div_fin_of_ne _ (by norm_num), XF.cos_fin, XF.fin_mul_fin, XF.fin_add_fin]
  have course' := C47_course api hd mmt modNight md course sun out hret
  rw [hout] at course' ⊢
  refine shift_near ?_ hnoon hex ?_
  · intro i _ h _
    rw [cell]
    trivial
  · intro i hi him
    refine ⟨⟨_, cell i _⟩, ?_⟩
    obtain ⟨lo, q, hq⟩ := hloc i hi him
    have hq24 := hq.2.2.1
    rw [← him] at hq
    obtain ⟨hL, hnear⟩ := peaks_isLoc (hsun i hi) (hnoon _) hq
    refine ⟨q, hq24, ?_, hnear⟩
    have hc : ∀ h : Nat, h < 24 → sineMeanCell h (locRow n (fun i => XF.fin (a i)) (fun i => .fin (b i)) (fun i => .fin (t i)) lo' hi' i) =
        .fin (t i + (b i - a i) / 2 * Real.cos (2 * Real.pi * ((h : ℝ) - (q : Nat)) / 24)) := by
      intro h hh
      have := course' i hi (a i) (b i) (t i) rfl rfl rfl lo q hL h hh
      rw [dayCells_hourlyS d0 _ hi, day24_getElem? _ hh] at this
      have := Option.some.inj this
      exact_mod_cast this
    have hr := hab i hi
    refine firstMax_of hi (v := fun h => t i + (b i - a i) / 2 * Real.cos (2 * Real.pi * ((h : ℝ) - (q : Nat)) / 24)) hc hq24 ?_ ?_
    · intro h hh
      have := cos_hours_lt (h := h) (by omega) hq24 (by omega)
      simp only [sub_self, mul_zero, zero_div, Real.cos_zero]
      nlinarith
    · intro h hh hlt
      have := Real.cos_le_one (2 * Real.pi * ((h : ℝ) - (q : Nat)) / 24)
      simp only [sub_self, mul_zero, zero_div, Real.cos_zero]
      nlinarith

/-- **C120** (temperature, shift, sine_min_max) The same for 'sine_min_max' if in the days of the month the maximum is not below that of the previous day and above the minimum of the day and not
below that of the next day. -/
theorem C120_shift_sine (api : PandasApi) {a b t : Nat → ℝ} (hd : TempDays daily d0 n (fun i => .fin (a i)) (fun i => .fin (b i)) (fun i => .fin (t i)))
    {method : String} (hm : IsSine method) (mmt : String) (md : Option (List (Int × XF ℝ))) (course : Option (MeanCourse ℝ)) (sun : Series SunTimes)
    {lon lat tz : ℝ} (hsun : ∀ i < n, sun.at? (at00 (d0 + (i : Nat))) = some (sunTimesDoy (doyOf (at00 (d0 + (i : Nat)))) lon lat tz)) {noon : Int → ℝ}
    (hnoon : ∀ d, (sunTimesDoy (doyOf (at00 d)) lon lat tz).sunnoon = .fin (noon d)) {out : Series (XF ℝ)}
    (hret : disaggregateTemperature api daily method mmt false md course (some sun) = .ok out) {m : Int} {s : ℝ}
    (hex : ∃ i < n, monthOf (at00 (d0 + (i : Nat))) = m)
    (hab : ∀ i < n, monthOf (at00 (d0 + (i : Nat))) = m → a i < b i ∧ nextDay n a i ≤ b i ∧ prevDay b i ≤ b i)
    (hloc : ∀ i < n, monthOf (at00 (d0 + (i : Nat))) = m → ∃ lo q, PeaksAfterNoon mmt md m (sunTimesDoy (doyOf (at00 (d0 + (i : Nat)))) lon lat tz).sunrise (noon (d0 + (i : Nat))) s lo q) :
    ∃ y, (m, XF.fin y) ∈ getShiftByData out lon lat tz ∧ |y - s| ≤ 1 / 2 := by
  have hn : 0 < n := by obtain ⟨i, hi, _⟩ := hex; omega
  have hm' : method = "sine_min_max" ∨ method = "sine_mean" ∨ method = "sine" := by rcases hm with h | h <;> simp [h]
  have hne : method ≠ "sine_mean" := by rcases hm with h | h <;> simp [h]
  obtain ⟨_, lo', hi', _, _, _, hout, _⟩ := sine_inv hd hn hm' hret
  simp only [hne, if_false] at hout
  have next : ∀ i, nextDay n (fun i => XF.fin (a i)) i = .fin (nextDay n a i) := by
    intro i; unfold nextDay; split <;> rfl
  have prev : ∀ i, prevDay (fun i => XF.fin (b i)) i = .fin (prevDay b i) := by
    intro i; unfold prevDay; split <;> rfl
  have cell : ∀ i h, ∃ y, sineCell false h (locRow n (fun i => XF.fin (a i)) (fun i => .fin (b i)) (fun i => .fin (t i)) lo' hi' i) = .fin y := by
    intro i h
    exact ⟨_, sineCell_eq (minValAt_row rfl (next i)) (maxValAt_row rfl (prev i)) (by simp)⟩
  have course' := C80_course api hd method mmt hm md course sun out hret
  rw [hout] at course' ⊢
  refine shift_near ?_ hnoon hex ?_
  · intro i _ h _
    obtain ⟨y, hy⟩ := cell i h
    rw [hy]
    trivial
  · intro i hi him
    refine ⟨cell i _, ?_⟩
    obtain ⟨lo, q, hq⟩ := hloc i hi him
    have hq24 := hq.2.2.1
    have hlq := hq.2.1
    rw [← him] at hq
    obtain ⟨hL, hnear⟩ := peaks_isLoc (hsun i hi) (hnoon _) hq
    refine ⟨q, hq24, ?_, hnear⟩
    obtain ⟨r1, r2, r3⟩ := hab i hi him
    have hc : ∀ h : Nat, h < 24 → sineCell false h (locRow n (fun i => XF.fin (a i)) (fun i => .fin (b i)) (fun i => .fin (t i)) lo' hi' i) =
        .fin (((if (h : Int) < lo then prevDay b i else b i) + (if (h : Int) < q then a i else nextDay n a i)) / 2 +
          ((if (h : Int) < lo then prevDay b i else b i) - (if (h : Int) < q then a i else nextDay n a i)) / 2 * Real.cos (2 * Real.pi * ((h : ℝ) - (q : Nat)) / 24)) := by
      intro h hh
      have := course' i hi (a i) (nextDay n a i) (b i) (prevDay b i) rfl (next i) rfl (prev i) lo q hL h hh _ _ rfl rfl
      rw [dayCells_hourlyS d0 _ hi, day24_getElem? _ hh] at this
      have := Option.some.inj this
      exact_mod_cast this
    have top : ((if (q : Int) < lo then prevDay b i else b i) + (if (q : Int) < q then a i else nextDay n a i)) / 2 +
          ((if (q : Int) < lo then prevDay b i else b i) - (if (q : Int) < q then a i else nextDay n a i)) / 2 * Real.cos (2 * Real.pi * ((q : ℝ) - (q : Nat)) / 24) = b i := by
      rw [if_neg (show ¬ (q : Int) < lo by omega)]
      simp
      ring
    refine firstMax_of hi (v := fun h => ((if (h : Int) < lo then prevDay b i else b i) + (if (h : Int) < q then a i else nextDay n a i)) / 2 +
          ((if (h : Int) < lo then prevDay b i else b i) - (if (h : Int) < q then a i else nextDay n a i)) / 2 * Real.cos (2 * Real.pi * ((h : ℝ) - (q : Nat)) / 24)) hc hq24 ?_ ?_
    · intro h hh
      rw [top]
      refine wave_lt ?_ ?_ (cos_hours_lt (by omega) hq24 (by omega))
      · rw [if_pos (by omega)]; exact r1
      · split
        · exact r3
        · exact le_refl _
    · intro h hh hlt
      rw [top]
      apply wave_le
      · rw [if_neg (by omega)]; exact r2
      · split
        · exact r3
        · exact le_refl _

/-! ## examples -/

/-- C120 (mean_course_min_max): the two days of the example -/
example : ∃ out, disaggregateTemperature .modern exFrame "mean_course_min_max" "fix" false none (some exCourse) none = .ok out ∧
    (meanDailyCourseByMonth out true).val 1 15 = .fin 1 ∧ (meanDailyCourseByMonth out true).val 1 20 = .fin (1 / 2) := by
  obtain ⟨out, h, _, _⟩ := C48_mean_course_min_max .modern exDays.index (by decide) exDays.hmin exDays.hmax "fix" false none none exCourse exCovers
  have key := (C120_mean_course_min_max .modern exDays.index (by decide) exDays.hmin exDays.hmax (by
    intro i hi
    rcases i with _ | _ | i
    · exact .inr (.inr ⟨283, 293, rfl, rfl, by norm_num⟩)
    · exact .inr (.inr ⟨273, 303, rfl, rfl, by norm_num⟩)
    · omega) _ _ _ _ exCourse exCovers (fun _ _ => exCourse_norm _) h 1 ⟨0, by decide, exMonth 0 (by decide), 283, 293, rfl, rfl, by norm_num⟩).2
  exact ⟨out, h, (key 15 (by decide)).2.trans (by simp [exCourse]), (key 20 (by decide)).2.trans (by simp [exCourse])⟩

/-- C120 (mean_course_mean) -/
example : ∃ out, disaggregateTemperature .modern exFrame "mean_course_mean" "fix" false none (some exCourse) none = .ok out ∧
    (meanDailyCourseByMonth out true).val 1 15 = .fin 1 ∧ (meanDailyCourseByMonth out true).val 1 20 = .fin (1 / 2) := by
  obtain ⟨out, h, _, _⟩ := C49_mean_course_mean .modern exDays (by decide) "fix" false none none exCourse exCovers.months rfl
    (fun i _ h hh => by obtain ⟨y, hy, _⟩ := (exCourse_norm (monthOf (at00 (0 + i)))).range h hh; exact ⟨y, hy⟩)
  have key := (C120_mean_course_mean .modern exDays (by decide) (by
    intro i hi
    rcases i with _ | _ | i
    · refine ⟨⟨trivial, trivial, trivial⟩, ?_⟩
      rintro a b ⟨⟩ ⟨⟩
      norm_num
    · refine ⟨⟨trivial, trivial, trivial⟩, ?_⟩
      rintro a b ⟨⟩ ⟨⟩
      norm_num
    · omega) _ _ _ _ exCourse exCovers.months rfl (fun _ _ => exCourse_norm _) h 1 ⟨0, by decide, exMonth 0 (by decide), 283, 293, 288, rfl, rfl, rfl, by norm_num⟩).2
  exact ⟨out, h, (key 15 (by decide)).2.trans (by simp [exCourse]), (key 20 (by decide)).2.trans (by simp [exCourse])⟩

/-- one half of a day without radiation, the other with the same -/
def halfCourse : Nat → ℝ := fun h => if h < 12 then 0 else 1

theorem halfCourse_sum : (day24 halfCourse).sum = 12 := by
  simp [halfCourse, day24, List.range_succ]
  norm_num

def halfTable : MeanCourse ℝ where
  months := [1]
  hours := (List.range 24).map fun k : Nat => (k : Int)
  val := fun _ h => .fin (halfCourse h.toNat)

/-- C120 (radiation): two days in January with 100 and 300 W/m²; the fitted table has 400 in the second half of the day, and gives the same results -/
example : ∃ out, disaggregateRadiation .modern ⟨[at00 0, at00 1], [("glob", [.fin 100, .fin 300])]⟩ none none "mean_course" (course := some halfTable) = .ok out ∧
    (∃ κ : ℝ, 0 < κ ∧ (meanDailyCourseByMonth out).val 1 15 = .fin (κ * 1) ∧ (meanDailyCourseByMonth out).val 1 3 = .fin (κ * 0)) ∧
    disaggregateRadiation .modern ⟨[at00 0, at00 1], [("glob", [.fin 100, .fin 300])]⟩ none none "mean_course" (course := some (meanDailyCourseByMonth out)) = .ok out := by
  have hg : (⟨[at00 0, at00 1], [("glob", [.fin 100, .fin 300])]⟩ : Frame ℝ).col? "glob" = some (dailyS 0 2 fun i => .fin (if i = 0 then 100 else 300)) := rfl
  have hcov : Covers halfTable 0 2 := by
    refine ⟨fun i hi => by rw [exMonth i hi]; simp [halfTable], fun h hh => ?_⟩
    exact List.mem_map.2 ⟨h, List.mem_range.2 hh, rfl⟩
  have hret := meanCourseRad_eq .modern (daily := ⟨[at00 0, at00 1], [("glob", [.fin 100, .fin 300])]⟩) (d0 := 0) (n := 2) rfl (by decide) hg none none (.scalar (.fin 0.25) (.fin 0.5)) (.scalar (.fin 0.75) (.fin 2.4)) hcov.months hcov.hours
  have hq : ∀ i < 2, (∀ h < 24, 0 ≤ (fun _ : Int => halfCourse) (monthOf (at00 (0 + (i : Nat)))) h) ∧ 0 < (day24 ((fun _ : Int => halfCourse) (monthOf (at00 (0 + (i : Nat)))))).sum := by
    intro i _
    refine ⟨fun h _ => ?_, ?_⟩
    · show 0 ≤ halfCourse h
      unfold halfCourse
      split <;> norm_num
    · show 0 < (day24 halfCourse).sum
      rw [halfCourse_sum]; norm_num
  have hv : ∀ i < 2, (fun i : Nat => (.fin (if i = 0 then 100 else 300) : XF ℝ)) i = .nan ∨ ∃ g, (fun i : Nat => (.fin (if i = 0 then 100 else 300) : XF ℝ)) i = .fin g ∧ 0 ≤ g ∧
      ∀ h < 24, (fun _ : Int => halfCourse) (monthOf (at00 (0 + (i : Nat)))) h = 0 ∨ g = 0 ∨
      0.01 ≤ (fun _ : Int => halfCourse) (monthOf (at00 (0 + (i : Nat)))) h / ((day24 ((fun _ : Int => halfCourse) (monthOf (at00 (0 + (i : Nat)))))).sum / 24) * g := by
    intro i _
    refine .inr ⟨_, rfl, by split <;> norm_num, fun h _ => ?_⟩
    show halfCourse h = 0 ∨ _ ∨ 0.01 ≤ halfCourse h / ((day24 halfCourse).sum / 24) * _
    rw [halfCourse_sum]
    unfold halfCourse
    by_cases h12 : h < 12
    · left; rw [if_pos h12]
    · right; right
      rw [if_neg h12]
      split <;> norm_num
  have hm : ∀ k < 2, ∃ i < 2, monthOf (at00 (0 + (i : Nat))) = monthOf (at00 (0 + (k : Nat))) ∧ ∃ g, (fun i : Nat => (.fin (if i = 0 then 100 else 300) : XF ℝ)) i = .fin g ∧ 0 < g := by
    intro k hk
    exact ⟨k, hk, rfl, _, rfl, by split <;> norm_num⟩
  have hcq : ∀ i < 2, ∀ h < 24, halfTable.val (monthOf (at00 (0 + (i : Nat)))) (h : Nat) = .fin ((fun _ : Int => halfCourse) (monthOf (at00 (0 + (i : Nat)))) h) := by
    intro i _ h _
    simp [halfTable]
  refine ⟨_, hret, ?_, ?_⟩
  · obtain ⟨_, _, κ, h1, h2⟩ := C120_radiation .modern rfl (by decide) hg hcov (q := fun _ => halfCourse) hcq hq hv none none _ _ hret 1
      ⟨0, by decide, exMonth 0 (by decide), 100, rfl, by norm_num⟩
    exact ⟨κ, h1, (h2 15 (by decide)).trans (by simp [halfCourse]), (h2 3 (by decide)).trans (by simp [halfCourse])⟩
  · rw [C120_radiation_use .modern rfl (by decide) hg hcov (q := fun _ => halfCourse) hcq hq hv none none _ _ hret (by decide) rfl hg hm none none _ _]
    exact hret

/-- C120 (radiation, the cut): 0.004 W/m² in the second half of the day -/
example : ∃ out, disaggregateRadiation .modern ⟨[at00 0, at00 1], [("glob", [.fin 0.004, .nan])]⟩ none none "mean_course" (course := some halfTable) = .ok out ∧
    (meanDailyCourseByMonth out).val 1 15 = .fin 0 := by
  have hg : (⟨[at00 0, at00 1], [("glob", [.fin 0.004, .nan])]⟩ : Frame ℝ).col? "glob" = some (dailyS 0 2 fun i => if i = 0 then .fin 0.004 else .nan) := rfl
  have hcov : Covers halfTable 0 2 := by
    refine ⟨fun i hi => by rw [exMonth i hi]; simp [halfTable], fun h hh => ?_⟩
    exact List.mem_map.2 ⟨h, List.mem_range.2 hh, rfl⟩
  have hret := meanCourseRad_eq .modern (daily := ⟨[at00 0, at00 1], [("glob", [.fin 0.004, .nan])]⟩) (d0 := 0) (n := 2) rfl (by decide) hg none none (.scalar (.fin 0.25) (.fin 0.5)) (.scalar (.fin 0.75) (.fin 2.4)) hcov.months hcov.hours
  refine ⟨_, hret, C120_radiation_cut .modern rfl (by decide) hg hcov (q := halfCourse) (fun h _ => by simp [halfTable]) (by rw [halfCourse_sum]; norm_num) (by decide) ?_
    ⟨0, by decide, exMonth 0 (by decide), by simp⟩ none none _ _ hret⟩
  intro i _ _
  by_cases h0 : i = 0
  · right
    refine ⟨0.004, by rw [if_pos h0], ?_⟩
    rw [halfCourse_sum]
    simp [halfCourse]
    norm_num
  · left; rw [if_neg h0]

/-- C120 (humidity): a dry day in January with the example table (0 % before noon, 100 % afterwards), and an hourly record without precipitation -/
example : ∃ out table', disaggregateHumidity .modern ⟨[at00 0], [("precip", [.fin 0])]⟩ "month_hour_precip_mean" none none none none (some exampleTable) = .ok out ∧
    monthHourPrecipMean (K := ℝ) ⟨out.index, [("hum", out.values), ("precip", out.values.map fun _ => .fin 0)]⟩ = .ok table' ∧
    ((1, 5, false), .fin 0) ∈ table' ∧ ((1, 15, false), .fin 100) ∈ table' := by
  have hp : (⟨[at00 0], [("precip", [.fin 0])]⟩ : Frame ℝ).col? "precip" = some (dailyS 0 1 fun _ => .fin 0) := rfl
  have hnod : (exampleTable.map Prod.fst).Nodup := by
    unfold exampleTable
    rw [List.map_map]
    refine List.Nodup.map ?_ List.nodup_range
    intro x y hxy
    simpa using hxy
  have hwet : ∀ i < 1, ((fun _ : Nat => (.fin 0 : XF ℝ)) i).NanOrFin ∧ ((fun _ : Nat => false) i = true ↔ ∃ x, (fun _ : Nat => (.fin 0 : XF ℝ)) i = .fin x ∧ 0 < x) := by
    intro i _
    refine ⟨trivial, ⟨fun h => by simp at h, ?_⟩⟩
    rintro ⟨x, hx, h0⟩
    injection hx with hx
    linarith
  have hmon : ∀ h : Nat, h < 24 → monthOf (atHour (0 + ((0 : Nat) : Int)) h) = 1 := by
    intro h hh
    rw [monthOf_atHour _ hh]
    decide
  obtain ⟨out, h1, h2⟩ := (C41_categorical .modern _ none none none none exampleTable 0 1 (by decide) _ hp hnod (fun _ => false) hwet).1 (by
    intro i hi h hh
    obtain rfl : i = 0 := by omega
    dsimp only
    rw [hmon h hh]
    exact List.mem_map.2 ⟨_, List.mem_map.2 ⟨h, List.mem_range.2 hh, rfl⟩, rfl⟩)
  have hcol : ∀ l : Series (XF ℝ), l.index.zip (l.values.map fun _ => (.fin 0 : XF ℝ)) = l.map fun r => (r.1, .fin 0) := by
    intro l
    unfold Series.index Series.values
    rw [List.map_map, List.zip_map']
    rfl
  have hzip : ∀ l : Series (XF ℝ), l.index.zip l.values = l := by
    intro l
    unfold Series.index Series.values
    rw [List.zip_map']
    simp
  have wf : (⟨out.index, [("hum", out.values), ("precip", out.values.map fun _ => .fin 0)]⟩ : Frame ℝ).WF := by
    intro c hc
    rcases List.mem_cons.1 hc with rfl | hc
    · simp [Series.index, Series.values]
    · rw [List.mem_singleton.1 hc]
      simp [Series.index, Series.values]
  have c1 : (⟨out.index, [("hum", out.values), ("precip", out.values.map fun _ => .fin 0)]⟩ : Frame ℝ).col? "hum" = some out := by
    show some (out.index.zip out.values) = _
    rw [hzip]
  have c2 : (⟨out.index, [("hum", out.values), ("precip", out.values.map fun _ => .fin 0)]⟩ : Frame ℝ).col? "precip" = some (out.map fun r => (r.1, .fin 0)) := by
    show some (out.index.zip (out.values.map fun _ => (.fin 0 : XF ℝ))) = _
    rw [hcol]
  obtain ⟨table', h3, _, _, h4⟩ := C120_humidity .modern _ none none none none exampleTable 0 1 (by decide) _ hp hnod (fun _ => false) hwet h1 wf c1 c2 (by
      intro r hr
      obtain ⟨q, _, rfl⟩ := List.mem_map.1 hr
      trivial) (by
      intro i _
      have : (numbers (dayCells (out.map fun r => (r.1, (.fin 0 : XF ℝ))) (0 + (i : Nat)))).sum = 0 := by
        apply List.sum_eq_zero
        intro x hx
        unfold numbers at hx
        obtain ⟨c, hc, hx⟩ := List.mem_filterMap.1 hx
        unfold dayCells at hc
        obtain ⟨r, hr, rfl⟩ := List.mem_map.1 hc
        obtain ⟨q, _, rfl⟩ := List.mem_map.1 (List.mem_filter.1 hr).1
        simpa using hx.symm
      rw [this]
      simp)
  refine ⟨out, table', h1, h3, ?_, ?_⟩
  · have := h4 0 (by decide) 5 (by decide) (.fin 0) (by
      dsimp only
      rw [hmon 5 (by decide)]
      exact List.mem_map.2 ⟨5, List.mem_range.2 (by decide), by simp⟩)
    dsimp only at this
    rw [hmon 5 (by decide)] at this
    simpa [XF.clip] using this
  · have := h4 0 (by decide) 15 (by decide) (.fin 100) (by
      dsimp only
      rw [hmon 15 (by decide)]
      exact List.mem_map.2 ⟨15, List.mem_range.2 (by decide), by simp⟩)
    dsimp only at this
    rw [hmon 15 (by decide)] at this
    simpa [XF.clip] using this

theorem equator_sun (doy : Int) : ∃ rise noon set : ℝ, sunTimesDoy doy 0 0 0 = ⟨.fin rise, .fin noon, .fin set, .fin 12⟩ ∧ |rise - 6| ≤ 0.35 ∧ |noon - 12| ≤ 0.35 := by
  have h12 : dayLen doy 0 = 12 := by
    unfold dayLen sunArg
    simp
    have := Real.pi_pos
    field_simp
    norm_num
  have he := abs_le.1 (abs_eqTime_le doy)
  have hn : noonAt doy 0 0 = 12 - eqTime doy := by unfold noonAt; simp
  rw [sunTimesDoy_eq, h12, hn]
  refine ⟨_, _, _, rfl, ?_, ?_⟩
  · rw [if_neg (by linarith [he.1, he.2]), abs_le]
    constructor <;> linarith [he.1, he.2]
  · rw [abs_le]
    constructor <;> linarith [he.1, he.2]

theorem equator_at (i : Nat) (hi : i < 2) : (getSunTimes exFrame.index 0 0 0).at? (at00 (0 + (i : Nat))) = some (sunTimesDoy (doyOf (at00 (0 + (i : Nat)))) 0 0 0) := by
  rcases i with _ | _ | i
  · rfl
  · rfl
  · omega

theorem equator_peaks (md : Option (List (Int × XF ℝ))) (m d : Int) {noon : ℝ} (hn : (sunTimesDoy d 0 0 0).sunnoon = .fin noon) :
    PeaksAfterNoon "sun_loc" md m (sunTimesDoy d 0 0 0).sunrise noon 2 6 14 := by
  obtain ⟨rise, noon', set, e, h1, h2⟩ := equator_sun d
  rw [e] at hn ⊢
  injection hn with hn
  subst hn
  rw [abs_le] at h1 h2
  refine ⟨⟨rise, rfl, ?_⟩, by decide, by decide, .inl ⟨rfl, rfl, ?_⟩⟩
  · refine ⟨?_, fun h => ?_⟩
    · rw [abs_le]; push_cast; constructor <;> linarith [h1.1, h1.2]
    · exfalso
      rw [abs_eq (by norm_num)] at h
      push_cast at h
      rcases h with h | h <;> linarith [h1.1, h1.2]
  · refine ⟨?_, fun h => ?_⟩
    · rw [abs_le]; push_cast; constructor <;> linarith [h2.1, h2.2]
    · exfalso
      rw [abs_eq (by norm_num)] at h
      push_cast at h
      rcases h with h | h <;> linarith [h2.1, h2.2]

theorem equator_noon : ∃ noon : Int → ℝ, ∀ d, (sunTimesDoy (doyOf (at00 d)) 0 0 0).sunnoon = .fin (noon d) := by
  refine ⟨fun d => noonAt (doyOf (at00 d)) 0 0, fun d => ?_⟩
  rw [sunTimesDoy_eq]

theorem equator_ok {method : String} (hm : method = "sine_min_max" ∨ method = "sine_mean" ∨ method = "sine") :
    ∃ out, disaggregateTemperature .modern exFrame method "sun_loc" false none none (some (getSunTimes exFrame.index 0 0 0)) = .ok out := by
  obtain ⟨noon, hnoon⟩ := equator_noon
  refine sine_ok .modern exDays (by decide) hm false none ?_ (fun h => absurd h (by decide)) ?_
  · intro i hi
    exact ⟨_, _, (peaks_isLoc (equator_at i hi) (hnoon _) (equator_peaks none _ _ (hnoon _))).1⟩
  · intro r hr
    obtain ⟨t, _, rfl⟩ := List.mem_map.1 hr
    obtain ⟨rise, noon', set, e, _⟩ := equator_sun (doyOf t)
    rw [e]
    simp only [XF.lt_fin]
    norm_num

theorem exDaysR : TempDays exFrame 0 2 (fun i => .fin (if i = 0 then 283 else 273)) (fun i => .fin (if i = 0 then 293 else 303)) (fun _ => .fin 288) := ⟨rfl, rfl, rfl, rfl⟩

/-- C120 (shift): two days at the equator with 'sun_loc' -/
example : ∃ out y, disaggregateTemperature .modern exFrame "sine_mean" "sun_loc" false none none (some (getSunTimes exFrame.index 0 0 0)) = .ok out ∧
    (1, XF.fin y) ∈ getShiftByData out 0 0 0 ∧ |y - 2| ≤ 1 / 2 := by
  obtain ⟨out, h⟩ := equator_ok (.inr (.inl rfl))
  obtain ⟨noon, hnoon⟩ := equator_noon
  obtain ⟨y, h1, h2⟩ := C120_shift_mean .modern exDaysR (by intro i _; split <;> norm_num) _ _ _ _ _ equator_at hnoon h (m := 1) (s := 2) ⟨0, by decide, exMonth 0 (by decide)⟩
    fun i _ _ => ⟨6, 14, equator_peaks _ _ _ (hnoon _)⟩
  exact ⟨out, y, h, h1, h2⟩

/-- C120 (shift, `sine_min_max`): one day at the equator -/
example : ∃ out y, disaggregateTemperature .modern ⟨[at00 0], [("tmin", [.fin 283]), ("tmax", [.fin 293]), ("temp", [.fin 288])]⟩ "sine_min_max" "sun_loc" false none none
      (some (getSunTimes exFrame.index 0 0 0)) = .ok out ∧ (1, XF.fin y) ∈ getShiftByData out 0 0 0 ∧ |y - 2| ≤ 1 / 2 := by
  have hd : TempDays (⟨[at00 0], [("tmin", [.fin 283]), ("tmax", [.fin 293]), ("temp", [.fin 288])]⟩ : Frame ℝ) 0 1 (fun _ => .fin 283) (fun _ => .fin 293) (fun _ => .fin 288) :=
    ⟨rfl, rfl, rfl, rfl⟩
  obtain ⟨noon, hnoon⟩ := equator_noon
  obtain ⟨out, h⟩ := sine_ok .modern hd (by decide) (.inl rfl) (method := "sine_min_max") (mmt := "sun_loc") (md := none) false none (sun := getSunTimes exFrame.index 0 0 0) (by
    intro i hi
    exact ⟨_, _, (peaks_isLoc (equator_at i (by omega)) (hnoon _) (equator_peaks none _ _ (hnoon _))).1⟩) (fun h => absurd h (by decide)) (by
    intro r hr
    obtain ⟨t, _, rfl⟩ := List.mem_map.1 hr
    obtain ⟨rise, noon', set, e, _⟩ := equator_sun (doyOf t)
    rw [e]
    simp only [XF.lt_fin]
    norm_num)
  obtain ⟨y, h1, h2⟩ := C120_shift_sine .modern (a := fun _ => 283) (b := fun _ => 293) (t := fun _ => 288) hd (.inl rfl) _ _ _ _ (fun i hi => equator_at i (by omega)) hnoon h (m := 1) (s := 2)
    ⟨0, by decide, exMonth 0 (by decide)⟩ (by
      intro i hi _
      obtain rfl : i = 0 := by omega
      norm_num [nextDay, prevDay]) fun i _ _ => ⟨6, 14, equator_peaks _ _ _ (hnoon _)⟩
  exact ⟨out, y, h, h1, h2⟩

end

end Melodist
