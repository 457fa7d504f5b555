import Verif.Model.StatsRound
import Verif.Props.DailyRound
import Verif.Props.HumidityStats
import Verif.Props.CourseRound

/-!
# C151: tables of means in floating-point arithmetic
-/

set_option linter.unusedSectionVars false

namespace Melodist
open Spec

noncomputable section

/-- a day is wet in double precision exactly if it is wet -/
theorem wet_iff {sum : List (XF ℝ) → XF ℝ} (hsum : SumsDay sum) {cells : List (XF ℝ)} (hl : cells.length ≤ 1000000) (hc : ∀ c ∈ cells, NumberOrMissing c)
    (h0 : ∀ x ∈ numbers cells, 0 ≤ x) : XF.lt (.fin 0) (sum cells) ↔ 0 < (numbers cells).sum := by
  obtain ⟨t, ht, h1, h2⟩ := C149_dry ((numbers_length_le cells).trans hl) h0 one_pos (totalR_near hsum hl hc).1
  rw [ht, XF.lt_fin]
  have hs : 0 ≤ (numbers cells).sum := List.sum_nonneg h0
  constructor
  · intro h
    rcases hs.lt_or_eq with h' | h'
    · exact h'
    · exfalso
      refine h.ne' (h2.2 fun x hx => ?_)
      exact le_antisymm ((List.single_le_sum h0 x hx).trans h'.symm.le) (h0 x hx)
  · intro h
    rcases h1.lt_or_eq with h' | h'
    · exact h'
    · exfalso
      exact h.ne' (List.sum_eq_zero (h2.1 h'.symm))

theorem length_dayCells_le (s : Series (XF ℝ)) (d : Int) : (dayCells s d).length ≤ s.length := by
  unfold dayCells
  rw [List.length_map]
  exact List.length_filter_le _ _

theorem tableR_eq {sum : List (XF ℝ) → XF ℝ} (hsum : SumsDay sum) {obs : Frame ℝ} (hwf : obs.WF) {hum precip : Series (XF ℝ)} (h1 : obs.col? "hum" = some hum) (h2 : obs.col? "precip" = some precip)
    (hlen : precip.length ≤ 1000000) (hf2 : ∀ r ∈ precip, NumberOrMissing r.2) (hp : ∀ r ∈ precip, ∀ x, r.2 = .fin x → 0 ≤ x) :
    monthHourPrecipMeanR (roundBits 53) sum obs = .ok
      (((hum.map fun r => (monthOf r.1, hourOf r.1, decide (0 < (numbers (dayCells precip (dayOf r.1))).sum))).dedup).map fun k =>
        (k, meanR (roundBits 53) sum (catObs hum precip k.1 k.2.1 k.2.2))) := by
  unfold monthHourPrecipMeanR
  rw [attr_ok h2, py_ok_bind, attr_ok h1, py_ok_bind]
  dsimp only
  have hidx : hum.index = precip.index := by rw [col?_index hwf h1, col?_index hwf h2]
  have hk : (hum.map fun r => ((monthOf r.1, hourOf r.1,
      decide (XF.lt (.fin 0) (((precip.resampleD sum).at? (midnight (dayOf r.1))).getD .nan))), r.2)) =
      hum.map fun r => ((monthOf r.1, hourOf r.1, decide (0 < (numbers (dayCells precip (dayOf r.1))).sum)), r.2) := by
    apply List.map_congr_left
    intro r hr
    have hm : r.1 ∈ precip.index := by rw [← hidx]; exact List.mem_map_of_mem hr
    rw [resampleD_at? _ _ (mem_daySpan hm), Option.getD_some, onDay_eq_dayCells]
    have hcell : ∀ c ∈ dayCells precip (dayOf r.1), ∃ q ∈ precip, q.2 = c := by
      intro c hc
      obtain ⟨q, hq, rfl⟩ := List.mem_map.1 hc
      exact ⟨q, (List.mem_filter.1 hq).1, rfl⟩
    have := wet_iff hsum (cells := dayCells precip (dayOf r.1)) ((length_dayCells_le _ _).trans hlen)
      (fun c hc => by obtain ⟨q, hq, rfl⟩ := hcell c hc; exact hf2 q hq)
      (fun x hx => by
        obtain ⟨c, hc, hx⟩ := List.mem_filterMap.1 hx
        obtain ⟨q, hq, rfl⟩ := hcell c hc
        cases e : q.2 with
        | fin y => rw [e] at hx; cases hx; exact hp q hq _ e
        | nan => rw [e] at hx; cases hx
        | pinf => rw [e] at hx; cases hx
        | ninf => rw [e] at hx; cases hx)
    simp only [this]
  rw [hk, List.map_map]
  congr 1
  apply List.map_congr_left
  intro k _
  congr 2
  unfold catObs
  rw [List.filter_map, List.map_map]
  simp only [Function.comp_def]
  congr 1
  apply List.filter_congr
  intro r _
  obtain ⟨m, h, w⟩ := k
  rw [Bool.eq_iff_iff, beq_iff_eq, decide_eq_true_iff]
  simp only [Prod.mk.injEq]
  unfold hourOf dayOf
  constructor
  · rintro ⟨a, b, c⟩
    refine ⟨a, b, ?_⟩
    rw [← c, decide_eq_true_iff]
  · rintro ⟨a, b, c⟩
    refine ⟨a, b, ?_⟩
    rw [Bool.eq_iff_iff, decide_eq_true_iff]
    exact c

theorem catObs_mem {hum precip : Series (XF ℝ)} {m h : Int} {w : Bool} {c : XF ℝ} (hc : c ∈ catObs hum precip m h w) : ∃ r ∈ hum, r.2 = c := by
  obtain ⟨r, hr, rfl⟩ := List.mem_map.1 hc
  exact ⟨r, (List.mem_filter.1 hr).1, rfl⟩

theorem catObs_length (hum precip : Series (XF ℝ)) (m h : Int) (w : Bool) : (catObs hum precip m h w).length ≤ hum.length := by
  unfold catObs
  rw [List.length_map]
  exact List.length_filter_le _ _

/-- **C151** (humidity table).  `calculate_month_hour_precip_mean` in double precision, for up to a million rows, non-negative precipitation and any humidity, with sums as in C149: the categories are exactly
those of exact arithmetic (no wet day is taken for a dry one, or the other way round), in the same order, and every mean is that of the observations of its category up to (N + 9) 2⁻⁵³ of the mean of
their absolute values. -/
theorem C151_table {sum : List (XF ℝ) → XF ℝ} (hsum : SumsDay sum) (obs : Frame ℝ) (hwf : obs.WF) (hum precip : Series (XF ℝ)) (h1 : obs.col? "hum" = some hum) (h2 : obs.col? "precip" = some precip)
    (hlen : obs.index.length ≤ 1000000) (hf1 : ∀ r ∈ hum, NumberOrMissing r.2) (hf2 : ∀ r ∈ precip, NumberOrMissing r.2) (hp : ∀ r ∈ precip, ∀ x, r.2 = .fin x → 0 ≤ x) :
    ∃ table tableR, monthHourPrecipMean obs = .ok table ∧ monthHourPrecipMeanR (roundBits 53) sum obs = .ok tableR ∧ tableR.map Prod.fst = table.map Prod.fst ∧
      ∀ m h w x, ((m, h, w), x) ∈ tableR → MeanNear (numbers (catObs hum precip m h w)) x := by
  have hl1 : hum.length = obs.index.length := by rw [← col?_index hwf h1]; simp [Series.index]
  have hl2 : precip.length = obs.index.length := by rw [← col?_index hwf h2]; simp [Series.index]
  refine ⟨_, _, table_eq hwf h1 h2 (fun r hr => numberOrMissing_nanOrFin (hf2 r hr)), tableR_eq hsum hwf h1 h2 (by omega) hf2 hp, ?_, ?_⟩
  · rw [List.map_map, List.map_map]
    rfl
  · intro m h w x hx
    obtain ⟨k, _, he⟩ := List.mem_map.1 hx
    simp only [Prod.mk.injEq] at he
    obtain ⟨rfl, rfl⟩ := he
    refine meanR_near hsum ?_ fun c hc => ?_
    · have := catObs_length hum precip m h w
      omega
    · obtain ⟨r, hr, rfl⟩ := catObs_mem hc
      exact hf1 r hr

theorem clip_diff_le {x y : ℝ} : |(min (max x 0) 100) - min (max y 0) 100| ≤ |x - y| := by
  refine (abs_min_sub_min_le_max _ _ _ _).trans ?_
  rw [sub_self, abs_zero, max_eq_left (abs_nonneg _)]
  refine (abs_max_sub_max_le_max _ _ _ _).trans ?_
  rw [sub_self, abs_zero, max_eq_left (abs_nonneg _)]

/-- **C151** (hourly humidity from the table).  With observations between 0 and 100, hourly humidity by 'month_hour_precip_mean' from the table of C151_table differs from that of exact arithmetic by at most
(N + 9) 2⁻⁵³ · 100, where `N` is the number of rows (1.2e-8 for a million rows), and is missing where that is. -/
theorem C151_humidity {sum : List (XF ℝ) → XF ℝ} (hsum : SumsDay sum) (obs : Frame ℝ) (hwf : obs.WF) (hum precip : Series (XF ℝ)) (h1 : obs.col? "hum" = some hum) (h2 : obs.col? "precip" = some precip)
    (hlen : obs.index.length ≤ 1000000) (hf1 : ∀ r ∈ hum, NumberOrMissing r.2) (hb : ∀ r ∈ hum, ∀ x, r.2 = .fin x → 0 ≤ x ∧ x ≤ 100)
    (hf2 : ∀ r ∈ precip, NumberOrMissing r.2) (hp : ∀ r ∈ precip, ∀ x, r.2 = .fin x → 0 ≤ x)
    (api : PandasApi) (daily : Frame ℝ) (temp : Option (Series (XF ℝ))) (a0 a1 kr : Option ℝ) (d0 : Int) (n : Nat) (hn : 0 < n) (dp : Nat → XF ℝ) (hdp : daily.col? "precip" = some (dailyS d0 n dp))
    (wet : Nat → Bool) (hwet : ∀ i < n, (dp i).NanOrFin ∧ (wet i = true ↔ ∃ x, dp i = .fin x ∧ 0 < x))
    (hcat : ∀ i < n, ∀ h < 24, catObs hum precip (monthOf (atHour (d0 + (i : Nat)) h)) ((h : Nat) : Int) (wet i) ≠ []) :
    ∃ table tableR out outR, monthHourPrecipMean obs = .ok table ∧ monthHourPrecipMeanR (roundBits 53) sum obs = .ok tableR ∧
      disaggregateHumidity api daily "month_hour_precip_mean" temp a0 a1 kr (some table) = .ok out ∧
      disaggregateHumidity api daily "month_hour_precip_mean" temp a0 a1 kr (some tableR) = .ok outR ∧
      ∀ i < n, ∀ h < 24, (((dayCells out (d0 + (i : Nat)))[(h : Nat)]? = some .nan ∧ (dayCells outR (d0 + (i : Nat)))[(h : Nat)]? = some .nan)) ∨
        ∃ x y, (dayCells out (d0 + (i : Nat)))[(h : Nat)]? = some (.fin x) ∧ (dayCells outR (d0 + (i : Nat)))[(h : Nat)]? = some (.fin y) ∧ 0 ≤ y ∧ y ≤ 100 ∧
          |y - x| ≤ (obs.index.length + 9) / 2 ^ 53 * 100 := by
  have hf2' : ∀ r ∈ precip, r.2.NanOrFin := fun r hr => numberOrMissing_nanOrFin (hf2 r hr)
  have hf1' : ∀ r ∈ hum, r.2.NanOrFin := fun r hr => numberOrMissing_nanOrFin (hf1 r hr)
  obtain ⟨table, e1, nd, keys, vals⟩ := C41_table obs hwf hum precip h1 h2 hf1' hf2'
  obtain ⟨table', tableR, e1', e2, same, near⟩ := C151_table hsum obs hwf hum precip h1 h2 hlen hf1 hf2 hp
  rw [e1] at e1'
  cases e1'
  have cov : ∀ i < n, ∀ h < 24, (monthOf (atHour (d0 + (i : Nat)) h), ((h : Nat) : Int), wet i) ∈ table.map Prod.fst := fun i hi h hh => (keys _ _ _).2 (hcat i hi h hh)
  obtain ⟨out, o1, o2⟩ := (C41_categorical api daily temp a0 a1 kr table d0 n hn dp hdp nd wet hwet).1 cov
  obtain ⟨outR, p1, p2⟩ := (C41_categorical api daily temp a0 a1 kr tableR d0 n hn dp hdp (by rw [same]; exact nd) wet hwet).1 (by rw [same]; exact cov)
  refine ⟨table, tableR, out, outR, e1, e2, o1, p1, fun i hi h hh => ?_⟩
  obtain ⟨⟨k, x⟩, hx, hk⟩ := List.mem_map.1 (cov i hi h hh)
  dsimp only at hk
  subst hk
  have hcR : (monthOf (atHour (d0 + (i : Nat)) h), ((h : Nat) : Int), wet i) ∈ tableR.map Prod.fst := by rw [same]; exact cov i hi h hh
  obtain ⟨⟨k, y⟩, hy, hk⟩ := List.mem_map.1 hcR
  dsimp only at hk
  subst hk
  rw [o2 i hi h hh x hx, p2 i hi h hh y hy]
  have v := vals _ _ _ _ hx
  have w := near _ _ _ _ hy
  set l := numbers (catObs hum precip (monthOf (atHour (d0 + (i : Nat)) h)) ((h : Nat) : Int) (wet i)) with hl
  have hlb : ∀ z ∈ l, |z| ≤ 100 := by
    intro z hz
    obtain ⟨c, hc, hz⟩ := List.mem_filterMap.1 hz
    obtain ⟨q, hq, rfl⟩ := catObs_mem hc
    cases e : q.2 with
    | fin y =>
      rw [e] at hz
      cases hz
      obtain ⟨a, b⟩ := hb q hq _ e
      rw [abs_of_nonneg a]
      exact b
    | nan => rw [e] at hz; cases hz
    | pinf => rw [e] at hz; cases hz
    | ninf => rw [e] at hz; cases hz
  by_cases hne : l = []
  · left
    rw [v.1 hne]
    have : y = .nan := by
      cases y with
      | nan => rfl
      | fin z => exact absurd hne w.1
      | pinf => exact w.elim
      | ninf => exact w.elim
    rw [this]
    exact ⟨rfl, rfl⟩
  · right
    rw [v.2 hne]
    cases y with
    | nan => exact absurd w hne
    | pinf => exact w.elim
    | ninf => exact w.elim
    | fin z =>
      obtain ⟨-, w⟩ := w
      have hpos : (0 : ℝ) < l.length := by exact_mod_cast List.length_pos_of_ne_nil hne
      have b1 : absSum l / l.length ≤ 100 := by rw [div_le_iff₀ hpos, mul_comm]; exact absSum_le hlb
      have b2 : (l.length : ℝ) ≤ obs.index.length := by
        have a := numbers_length_le (catObs hum precip (monthOf (atHour (d0 + (i : Nat)) h)) ((h : Nat) : Int) (wet i))
        have b := catObs_length hum precip (monthOf (atHour (d0 + (i : Nat)) h)) ((h : Nat) : Int) (wet i)
        have c : hum.length = obs.index.length := by rw [← col?_index hwf h1]; simp [Series.index]
        exact_mod_cast (a.trans (b.trans c.le) : l.length ≤ obs.index.length)
      refine ⟨_, _, rfl, rfl, ?_, ?_, ?_⟩
      · exact le_min (le_max_right _ _) (by norm_num)
      · exact min_le_right _ _
      · refine clip_diff_le.trans (w.trans ?_)
        have c1 : ((l.length : ℝ) + 9) / 2 ^ 53 ≤ (obs.index.length + 9) / 2 ^ 53 := div_le_div_of_nonneg_right (by linarith) (by positivity)
        exact mul_le_mul c1 b1 (div_nonneg (absSum_nonneg _) hpos.le) (by positivity)

/-- **C151** (mean course).  `calculate_mean_daily_course_by_month` (not normalised) in double precision with means as in C149: the months and hours of the table are those of exact arithmetic, every entry is the mean of the
observations of its month and hour up to (N + 9) 2⁻⁵³ of the mean of their absolute values, and missing if there are none. -/
theorem C151_course {sum : List (XF ℝ) → XF ℝ} (hsum : SumsDay sum) (s : Series (XF ℝ)) (hlen : s.length ≤ 1000000) (hs : ∀ r ∈ s, NumberOrMissing r.2) :
    (meanDailyCourseByMonthR (roundBits 53) (meanR (roundBits 53) sum) s).months = (meanDailyCourseByMonth s).months ∧
    (meanDailyCourseByMonthR (roundBits 53) (meanR (roundBits 53) sum) s).hours = (meanDailyCourseByMonth s).hours ∧
    ∀ m h, MeanNear (numbers ((s.filter fun r => monthOf r.1 == m && r.1 % 86400000000 / 3600000000 == h).map Prod.snd))
      ((meanDailyCourseByMonthR (roundBits 53) (meanR (roundBits 53) sum) s).val m h) := by
  refine ⟨rfl, rfl, fun m h => ?_⟩
  refine meanR_near hsum ?_ fun c hc => ?_
  · rw [List.length_map]
    exact (List.length_filter_le _ _).trans hlen
  · obtain ⟨r, hr, rfl⟩ := List.mem_map.1 hc
    exact hs r (List.mem_filter.1 hr).1

/-- **C151** (exact arithmetic): with exact operations the table is that of C41. -/
theorem C151_exact (obs : Frame ℝ) : monthHourPrecipMeanR (fun x => x) sumSkip obs = monthHourPrecipMean obs := by
  have e : meanR (fun x : ℝ => x) sumSkip = meanSkip := by
    funext l
    unfold meanR meanSkip
    split_ifs
    · rfl
    · generalize (sumSkip l / XF.fin (countValid l : ℝ)) = c
      cases c <;> rfl
  unfold monthHourPrecipMeanR monthHourPrecipMean
  simp only [e]

/-- C151 at work: two observations in one category, on a wet day with amounts far below the resolution of the larger one -/
example : ∃ tableR x, monthHourPrecipMeanR (roundBits 53) (groupSumC (roundBits 53))
      ⟨[atHour 0 4, atHour 0 5, atHour 1 4], [("hum", [.fin 50, .nan, .fin 71]), ("precip", [.fin 0, .fin 1e-30, .fin 3])]⟩ = .ok tableR ∧
    ((1, 4, true), x) ∈ tableR ∧ MeanNear [50, 71] x := by
  have hsum : (0 : ℝ) < 1e-30 := by norm_num
  obtain ⟨table, tableR, e1, e2, same, near⟩ := C151_table C149_compensated.1
    ⟨[atHour 0 4, atHour 0 5, atHour 1 4], [("hum", [.fin 50, .nan, .fin 71]), ("precip", [.fin 0, .fin 1e-30, .fin 3])]⟩ (by intro c hc; simp at hc; rcases hc with rfl | rfl <;> rfl)
    [(atHour 0 4, .fin 50), (atHour 0 5, .nan), (atHour 1 4, .fin 71)] [(atHour 0 4, .fin 0), (atHour 0 5, .fin 1e-30), (atHour 1 4, .fin 3)] rfl rfl (by simp)
    (by
      intro r hr
      simp only [List.mem_cons, List.not_mem_nil, or_false] at hr
      rcases hr with rfl | rfl | rfl
      · exact .inr ⟨_, rfl⟩
      · exact .inl rfl
      · exact .inr ⟨_, rfl⟩)
    (by
      intro r hr
      simp only [List.mem_cons, List.not_mem_nil, or_false] at hr
      rcases hr with rfl | rfl | rfl <;> exact .inr ⟨_, rfl⟩)
    (by
      intro r hr x hx
      simp only [List.mem_cons, List.not_mem_nil, or_false] at hr
      rcases hr with rfl | rfl | rfl <;> (cases hx; norm_num))
  have d0 : dayCells [(atHour 0 4, XF.fin (0 : ℝ)), (atHour 0 5, .fin 1e-30), (atHour 1 4, .fin 3)] 0 = [.fin 0, .fin 1e-30] := rfl
  have d1 : dayCells [(atHour 0 4, XF.fin (0 : ℝ)), (atHour 0 5, .fin 1e-30), (atHour 1 4, .fin 3)] 1 = [.fin 3] := rfl
  have ht : ∀ t, (0 < (numbers (dayCells [(atHour 0 4, XF.fin (0 : ℝ)), (atHour 0 5, .fin 1e-30), (atHour 1 4, .fin 3)] t)).sum ↔ true = true) ↔
      0 < (numbers (dayCells [(atHour 0 4, XF.fin (0 : ℝ)), (atHour 0 5, .fin 1e-30), (atHour 1 4, .fin 3)] t)).sum := by intro t; simp
  have hcat : catObs [(atHour 0 4, XF.fin (50 : ℝ)), (atHour 0 5, .nan), (atHour 1 4, .fin 71)] [(atHour 0 4, .fin 0), (atHour 0 5, .fin 1e-30), (atHour 1 4, .fin 3)] 1 4 true = [.fin 50, .fin 71] := by
    unfold catObs
    simp only [ht]
    have a1 : (atHour 0 4) / 86400000000 = 0 := by decide
    have a2 : (atHour 0 5) % 86400000000 / 3600000000 ≠ 4 := by decide
    have a3 : (atHour 1 4) / 86400000000 = 1 := by decide
    have a4 : monthOf (atHour 0 4) = 1 := by decide +kernel
    have a5 : monthOf (atHour 1 4) = 1 := by decide +kernel
    have a6 : (atHour 0 4) % 86400000000 / 3600000000 = 4 := by decide
    have a7 : (atHour 1 4) % 86400000000 / 3600000000 = 4 := by decide
    have s0 : 0 < (numbers [XF.fin (0 : ℝ), .fin 1e-30]).sum := by
      show (0 : ℝ) < 0 + (1e-30 + 0)
      linarith
    have s1 : 0 < (numbers [XF.fin (3 : ℝ)]).sum := by
      show (0 : ℝ) < 3 + 0
      norm_num
    simp only [List.filter_cons, List.filter_nil, a1, a3, a4, a5, a6, a7, a2, d0, d1, s0, s1, true_and, false_and, and_false, decide_true, decide_false, if_true]
    rfl
  have hkey : (1, 4, true) ∈ tableR.map Prod.fst := by
    obtain ⟨table', e1', -, keys, -⟩ := C41_table (⟨[atHour 0 4, atHour 0 5, atHour 1 4], [("hum", [.fin 50, .nan, .fin 71]), ("precip", [.fin 0, .fin 1e-30, .fin 3])]⟩ : Frame ℝ)
      (by intro c hc; simp at hc; rcases hc with rfl | rfl <;> rfl)
      [(atHour 0 4, .fin 50), (atHour 0 5, .nan), (atHour 1 4, .fin 71)] [(atHour 0 4, .fin 0), (atHour 0 5, .fin 1e-30), (atHour 1 4, .fin 3)] rfl rfl (by simp) (by simp)
    rw [e1] at e1'
    cases e1'
    rw [same]
    refine (keys _ _ _).2 ?_
    rw [hcat]
    simp
  obtain ⟨⟨k, x⟩, hx, hk⟩ := List.mem_map.1 hkey
  dsimp only at hk
  subst hk
  have := near _ _ _ _ hx
  rw [hcat] at this
  exact ⟨tableR, x, e2, hx, this⟩

end

end Melodist
