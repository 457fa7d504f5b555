import Verif.Lemmas.Humidity
import Verif.Spec.Phys

/-!
# C36–C42: humidity
-/

set_option linter.unusedSectionVars false

namespace Melodist
open Spec

/-! ## C36 -/

/-- **C36.**  Whatever the data, the method and the options: every value of a returned series is missing or a number within [0, 100]. -/
theorem C36_humidity_range (api : PandasApi) (daily : Frame ℝ) (method : String) (temp : Option (Series (XF ℝ))) (a0 a1 kr : Option ℝ)
    (table : Option (CatMeans ℝ)) (preserve : Bool) (out : Series (XF ℝ))
    (h : disaggregateHumidity api daily method temp a0 a1 kr table preserve = .ok out) :
    ∀ r ∈ out, r.2 = .nan ∨ ∃ x, r.2 = .fin x ∧ 0 ≤ x ∧ x ≤ 100 := by
  unfold disaggregateHumidity at h
  obtain ⟨s, _, h⟩ := py_bind_inv h
  have key : ∀ s : Series (XF ℝ), ∀ r ∈ s.map (fun r => (r.1, r.2.clip 0 100)), r.2 = .nan ∨ ∃ x, r.2 = .fin x ∧ 0 ≤ x ∧ x ≤ 100 := by
    intro s r hr
    obtain ⟨q, _, rfl⟩ := List.mem_map.1 hr
    obtain ⟨t, x⟩ := q
    cases x with
    | nan => exact .inl rfl
    | ninf => exact .inr ⟨0, rfl, le_refl _, by norm_num⟩
    | pinf => exact .inr ⟨100, rfl, by norm_num, le_refl _⟩
    | fin x => exact .inr ⟨_, rfl, by simp, by simp⟩
  cases preserve with
  | false => cases h; exact key _
  | true =>
    obtain ⟨s', _, h⟩ := py_bind_inv h
    cases h
    exact key _

/-- C36 applies: equal humidity of two days, the second one given as 120 % -/
example : ∃ out, disaggregateHumidity .modern ⟨[at00 0, at00 1], [("hum", [.fin 50, .fin 120])]⟩ = .ok out ∧
    dayCells out 0 = day24 (fun _ => .fin 50) ∧ dayCells out 1 = day24 (fun _ => .fin 100) := by
  have h : (⟨[at00 0, at00 1], [("hum", [.fin 50, .fin 120])]⟩ : Frame ℝ).col? "hum" =
      some (dailyS 0 2 fun i => if i = 0 then .fin 50 else .fin 120) := rfl
  refine ⟨_, (hum_finish (raw_equal .modern _ none none none none none 0 2 (by omega) _ h)).1, ?_, ?_⟩
  · refine (dayCells_hourlyS 0 _ (n := 2) (i := 0) (by omega)).trans ?_
    apply day24_congr; intro _ _; norm_num [XF.clip]
  · refine (dayCells_hourlyS 0 _ (n := 2) (i := 1) (by omega)).trans ?_
    apply day24_congr; intro _ _; norm_num [XF.clip]

/-! ## C37 -/

theorem sub_eq_fin {a b : XF ℝ} {y : ℝ} (h : a - b = .fin y) : ∃ u v, a = .fin u ∧ b = .fin v ∧ u - v = y := by
  cases a <;> cases b <;> first | (cases h; done) | skip
  rename_i u v
  rw [XF.fin_sub_fin] at h
  exact ⟨u, v, rfl, rfl, by injection h⟩

theorem clip_inside {x : XF ℝ} {y : ℝ} (h : x.clip 0 100 = .fin y) (h0 : 0 < y) (h1 : y < 100) : x = .fin y := by
  cases x with
  | nan => cases h
  | ninf => simp only [XF.clip, XF.fin.injEq] at h; linarith
  | pinf => simp only [XF.clip, XF.fin.injEq] at h; linarith
  | fin x =>
    simp only [XF.clip, XF.fin.injEq] at h ⊢
    have h2 : max x 0 = y := by
      rcases min_choice (max x 0) 100 with e | e
      · rw [← h, e]
      · linarith
    rcases max_choice x 0 with e | e
    · rw [← h2, e]
    · linarith

theorem mean_of_bias {g : Nat → XF ℝ} {m : ℝ}
    (h : ∀ j < 24, ∃ y, (g j - humBias g (.fin m)) = .fin y) : ∃ y : Nat → ℝ, (∀ j < 24, g j - humBias g (.fin m) = .fin (y j)) ∧
      (day24 y).sum / 24 = m := by
  obtain ⟨y0, hy0⟩ := h 0 (by omega)
  obtain ⟨_, b, _, hb, _⟩ := sub_eq_fin hy0
  have hg : ∀ j < 24, ∃ u, g j = .fin u := by
    intro j hj
    obtain ⟨y, hy⟩ := h j hj
    obtain ⟨u, _, hu, _⟩ := sub_eq_fin hy
    exact ⟨u, hu⟩
  choose! u hu using hg
  have hmean : meanSkip (day24 g) = .fin ((day24 u).sum / 24) := by
    rw [day24_congr hu, meanSkip_eq (nanOrFin_day24 u) (by rw [numbers_day24]; simp [day24]), numbers_day24, day24_length]
    norm_num
  have hb' : humBias g (.fin m) = .fin ((day24 u).sum / 24 - m) := by
    unfold humBias
    rw [hmean, XF.fin_sub_fin]
    rfl
  refine ⟨fun j => u j - ((day24 u).sum / 24 - m), ?_, ?_⟩
  · intro j hj
    rw [hu j hj, hb', XF.fin_sub_fin]
  · have : (day24 fun j => u j - ((day24 u).sum / 24 - m)).sum = (day24 u).sum + (day24 fun _ => -((day24 u).sum / 24 - m)).sum := by
      rw [← sum_day24_add]
      congr 1
    rw [this, sum_day24_const]
    ring

/-- **C37.**  Any method, daily data on the days `d0, …, d0+n-1`, hourly temperature (if given) on all hours of these days.  If the call with
`preserve_daily_mean=True` returns a series, then on every day with an observed mean `m` on which all 24 returned values are strictly between
0 and 100 their mean is exactly `m`; and on a day whose observed mean is missing the values are those without the option. -/
theorem C37_daily_mean_preserved (api : PandasApi) (daily : Frame ℝ) (method : String) (temp : Option (Series (XF ℝ)))
    (a0 a1 kr : Option ℝ) (table : Option (CatMeans ℝ)) (d0 : Int) (n : Nat) (hn : 0 < n) (v : Nat → XF ℝ)
    (hwf : daily.WF) (hidx : daily.index = (List.range n).map fun i : Nat => at00 (d0 + i))
    (hum : daily.col? "hum" = some (dailyS d0 n v)) (ht : ∀ s, temp = some s → ∃ T, s = hourlyS d0 n T) (out : Series (XF ℝ))
    (h : disaggregateHumidity api daily method temp a0 a1 kr table true = .ok out) :
    (∀ i < n, ∀ m, v i = .fin m → (∀ c ∈ dayCells out (d0 + i), ∃ y, c = .fin y ∧ 0 < y ∧ y < 100) →
      MeanIs (dayCells out (d0 + i)) m) ∧
    ∃ out', disaggregateHumidity api daily method temp a0 a1 kr table false = .ok out' ∧
      ∀ i < n, v i = .nan → dayCells out (d0 + i) = dayCells out' (d0 + i) := by
  have h' := h
  unfold disaggregateHumidity at h'
  obtain ⟨s, hs, _⟩ := py_bind_inv h'
  obtain ⟨g, rfl⟩ := raw_shape hn (fun name s hc => dailyS_eq_of_index (f := fun _ => ())
    (by rw [col?_index hwf hc, hidx, dailyS_index])) ht hs
  have hf := hum_finish hs
  rw [hf.2 hn v hum] at h
  cases h
  refine ⟨?_, _, hf.1, ?_⟩
  · intro i hi m hm hc
    rw [dayCells_hourlyS d0 _ hi] at hc ⊢
    rw [hm] at hc ⊢
    have hfin : ∀ j < 24, ∃ y, (g i j - humBias (g i) (.fin m)) = .fin y ∧ 0 < y ∧ y < 100 := by
      intro j hj
      obtain ⟨y, hy, h0, h1⟩ := hc _ (mem_day24.2 ⟨j, hj, rfl⟩)
      exact ⟨y, clip_inside hy h0 h1, h0, h1⟩
    obtain ⟨y, hy, hmean⟩ := mean_of_bias fun j hj => ⟨_, (hfin j hj).choose_spec.1⟩
    refine ⟨day24 y, ?_, by simp [day24], ?_⟩
    · rw [day24_map]
      apply day24_congr
      intro j hj
      obtain ⟨z, hz, h0, h1⟩ := hfin j hj
      rw [hy j hj]
      rw [hy j hj] at hz
      injection hz with hz
      subst hz
      simp only [XF.clip, max_eq_left h0.le, min_eq_left h1.le]
    · rw [day24_length]
      exact_mod_cast hmean
  · intro i hi hv
    rw [dayCells_hourlyS d0 _ hi, dayCells_hourlyS d0 _ hi]
    apply day24_congr
    intro j hj
    have : humBias (g i) (v i) = .fin 0 := by
      unfold humBias; rw [hv]; simp
    simp only [this]
    cases hg : g i j <;> simp [XF.clip] <;> rfl

/-- **C37 (equal).**  With method 'equal' and daily means in [0, 100] (or missing) the option changes nothing: every hour has the daily
mean. -/
theorem C37_equal_unchanged (api : PandasApi) (daily : Frame ℝ) (temp : Option (Series (XF ℝ)))
    (a0 a1 kr : Option ℝ) (table : Option (CatMeans ℝ)) (d0 : Int) (n : Nat) (hn : 0 < n) (v : Nat → XF ℝ)
    (hum : daily.col? "hum" = some (dailyS d0 n v)) (hv : ∀ i < n, v i = .nan ∨ ∃ x, v i = .fin x ∧ 0 ≤ x ∧ x ≤ 100) (preserve : Bool) :
    disaggregateHumidity api daily "equal" temp a0 a1 kr table preserve = .ok (hourlyS d0 n fun i _ => v i) := by
  have hf := hum_finish (raw_equal api daily temp a0 a1 kr table d0 n hn v hum)
  have hclip : ∀ i < n, (v i).clip 0 100 = v i := by
    intro i hi
    rcases hv i hi with h | ⟨x, h, h0, h1⟩
    · rw [h]; rfl
    · rw [h]; simp only [XF.clip, max_eq_left h0, min_eq_left h1]
  cases preserve with
  | false =>
    rw [hf.1]
    congr 1
    exact hourlyS_congr d0 fun i hi _ _ => hclip i hi
  | true =>
    rw [hf.2 hn v hum]
    congr 1
    apply hourlyS_congr d0
    intro i hi _ _
    have hb : humBias (fun _ => v i) (v i) = .fin 0 := by
      unfold humBias
      rw [meanSkip_day24_const]
      rcases hv i hi with h | ⟨x, h, _⟩
      · rw [h]; rfl
      · rw [h]; simp
    rw [hb]
    rcases hv i hi with h | ⟨x, h, h0, h1⟩
    · rw [h]; rfl
    · rw [h, XF.fin_sub_fin, sub_zero, ← h]; exact hclip i hi

/-- categorical means 0 % before and 100 % after noon, for dry days in January -/
noncomputable def exampleTable : CatMeans ℝ := (List.range 24).map fun h : Nat => ((1, (h : Int), false), if h < 12 then .fin 0 else .fin 100)

/-- **C37 (limits).**  Without the condition on the values the claim is false: here the observed mean is 90 %, no value is missing and the
mean of the returned values is 70 %. -/
theorem C37_mean_not_preserved_in_general : ∃ (daily : Frame ℝ) (table : CatMeans ℝ) (out : Series (XF ℝ)),
    disaggregateHumidity .modern daily "month_hour_precip_mean" (table := some table) (preserve := true) = .ok out ∧
    daily.col? "hum" = some (dailyS 0 1 fun _ => .fin 90) ∧ MeanIs (dayCells out 0) 70 := by
  let daily : Frame ℝ := ⟨[at00 0], [("hum", [.fin 90]), ("precip", [.fin 0])]⟩
  have h1 : daily.col? "hum" = some (dailyS 0 1 fun _ => .fin 90) := rfl
  have h2 : daily.col? "precip" = some (dailyS 0 1 fun _ => .fin 0) := rfl
  refine ⟨daily, exampleTable, _, (hum_finish (raw_cat .modern daily none none none none exampleTable 0 1 (by omega) _ h2
    (fun _ h => if h < 12 then .fin 0 else .fin 100) ?_)).2 (by omega) _ h1, h1, ?_⟩
  · intro i hi h hh
    obtain rfl : i = 0 := by omega
    have hk : catKey 0 (fun _ => .fin 0) 0 h = (1, (h : Int), false) := by
      unfold catKey
      have : monthOf (atHour (0 + (0 : Nat)) h) = 1 := by
        rw [monthOf_atHour _ hh]
        decide
      rw [this]
      simp
    rw [hk]
    refine ⟨((1, (h : Int), false), if h < 12 then .fin 0 else .fin 100), ?_, rfl⟩
    have : h = 0 ∨ h = 1 ∨ h = 2 ∨ h = 3 ∨ h = 4 ∨ h = 5 ∨ h = 6 ∨ h = 7 ∨ h = 8 ∨ h = 9 ∨ h = 10 ∨ h = 11 ∨ h = 12 ∨ h = 13 ∨ h = 14 ∨
      h = 15 ∨ h = 16 ∨ h = 17 ∨ h = 18 ∨ h = 19 ∨ h = 20 ∨ h = 21 ∨ h = 22 ∨ h = 23 := by omega
    rcases this with rfl | rfl | rfl | rfl | rfl | rfl | rfl | rfl | rfl | rfl | rfl | rfl | rfl | rfl | rfl | rfl | rfl | rfl | rfl | rfl |
      rfl | rfl | rfl | rfl <;> rfl
  · have hb : humBias (fun h => if h < 12 then .fin 0 else .fin 100) (.fin 90) = .fin (-40) := by
      have e : (day24 fun h => if h < 12 then XF.fin 0 else XF.fin (100 : ℝ)) = day24 fun h => XF.fin (if h < 12 then 0 else 100) := by
        apply day24_congr; intro h _; split <;> rfl
      unfold humBias
      rw [e, meanSkip_eq (nanOrFin_day24 _) (by rw [numbers_day24]; simp [day24]), numbers_day24, day24_length, XF.fin_sub_fin]
      norm_num [day24, List.range_succ]
    rw [hb]
    refine Eq.subst (motive := fun l => MeanIs l (70 : ℝ)) (dayCells_hourlyS 0 _ (n := 1) (i := 0) (by omega)).symm ?_
    refine ⟨day24 fun h => if h < 12 then 40 else 100, ?_, by simp [day24], ?_⟩
    · rw [day24_map]
      apply day24_congr
      intro h _
      split <;> norm_num [XF.clip]
    · norm_num [day24, List.range_succ]

/-! ## C38 -/

theorem satPressure_eq (T : ℝ) : satPressure T = 6.112 * Real.exp (magnus T) := by
  unfold satPressure magnus; split <;> rfl

theorem satPressure_pos (T : ℝ) : 0 < satPressure T := by
  rw [satPressure_eq]; positivity

theorem satPressure_lt {T U : ℝ} (hT : 0.53 < T) (h : T < U) : satPressure T < satPressure U := by
  rw [satPressure_eq, satPressure_eq]
  have := Real.exp_lt_exp.2 (magnus_lt hT h)
  linarith

/-- **C06 (formula).**  Vapour pressure is the saturation pressure of Sonntag (1990), over water from 0 °C on and over ice below, times
humidity / 100. -/
theorem C06_sonntag_formula (T hum : ℝ) (hT : 0.53 < T) : vaporPressureCell (.fin T) (.fin hum) = .fin (satPressure T * hum / 100) := by
  rw [vaporPressureCell_eq hT, satPressure_eq]
  congr 1; ring

theorem rhCell_fin {td T : ℝ} (h1 : 0.53 < td) (h2 : 0.53 < T) : (rhCell (.fin td) (.fin T)).clip 0 100 = .fin (relHum td T) := by
  unfold rhCell relHum
  rw [C06_sonntag_formula td 100 h1, C06_sonntag_formula T 100 h2, XF.fin_mul_fin]
  have := satPressure_pos T
  rw [XF.fin_div_fin_of_ne _ (by positivity)]
  show XF.fin _ = _
  congr 3
  field_simp

theorem relHum_self (T : ℝ) : relHum T T = 100 := by
  unfold relHum
  have := satPressure_pos T
  rw [mul_div_assoc, div_self this.ne']
  norm_num

theorem relHum_between {td T : ℝ} (h1 : 0.53 < td) (h : td < T) : 0 < relHum td T ∧ relHum td T < 100 := by
  have p1 := satPressure_pos td
  have p2 := satPressure_pos T
  have hlt := satPressure_lt h1 h
  have hq : 100 * satPressure td / satPressure T < 100 := by
    rw [div_lt_iff₀ p2]; linarith
  have h0 : 0 < 100 * satPressure td / satPressure T := by positivity
  unfold relHum
  rw [max_eq_left h0.le, min_eq_left hq.le]
  exact ⟨h0, hq⟩

theorem relHum_anti {td T U : ℝ} (h1 : 0.53 < td) (h : td ≤ T) (hTU : T < U) : relHum td U < relHum td T := by
  have p1 := satPressure_pos td
  have p2 := satPressure_pos T
  have p3 := satPressure_pos U
  have hlt := satPressure_lt (lt_of_lt_of_le h1 h) hTU
  rcases h.lt_or_eq with h | rfl
  · have hle := satPressure_lt h1 h
    have hq1 : 100 * satPressure td / satPressure T < 100 := by
      rw [div_lt_iff₀ p2]; linarith
    have hq2 : 100 * satPressure td / satPressure U < 100 := by
      rw [div_lt_iff₀ p3]; linarith
    unfold relHum
    rw [max_eq_left (by positivity), max_eq_left (by positivity), min_eq_left hq1.le, min_eq_left hq2.le]
    exact div_lt_div_of_pos_left (by positivity) p2 hlt
  · rw [relHum_self]
    exact (relHum_between h1 hTU).2

/-- **C38.**  Method 'minimal': on a day with minimum temperature `m` (above 0.53 K, the limit of the formula) every hour at temperature
`T i h ≥ m` gets a humidity that is 100 % for `T i h = m`, strictly between 0 and 100 % above, and smaller the warmer the hour. -/
theorem C38_minimal (api : PandasApi) (daily : Frame ℝ) (a0 a1 kr : Option ℝ) (table : Option (CatMeans ℝ)) (d0 : Int) (n : Nat) (hn : 0 < n)
    (v : Nat → XF ℝ) (T : Nat → Nat → XF ℝ) (htmin : daily.col? "tmin" = some (dailyS d0 n v)) :
    ∃ out, disaggregateHumidity api daily "minimal" (some (hourlyS d0 n T)) a0 a1 kr table = .ok out ∧
      ∀ i < n, ∀ m, v i = .fin m → 0.53 < m → ∃ y : ℝ → ℝ,
        (∀ h < 24, ∀ t, T i h = .fin t → m ≤ t → (dayCells out (d0 + i))[(h : Nat)]? = some (.fin (y t))) ∧
        y m = 100 ∧ (∀ t, m < t → 0 < y t ∧ y t < 100) ∧ ∀ t u, m ≤ t → t < u → y u < y t := by
  refine ⟨_, (hum_finish (raw_minimal api daily a0 a1 kr table d0 n hn v T htmin)).1, ?_⟩
  intro i hi m hm h0
  refine ⟨relHum m, ?_, relHum_self m, fun t ht => relHum_between h0 ht, fun t u h1 h2 => relHum_anti h0 h1 h2⟩
  intro h hh t ht hmt
  rw [dayCells_hourlyS d0 _ hi]
  unfold day24
  rw [List.getElem?_map, List.getElem?_range hh, Option.map_some, hm, ht, XF.fin_mul_fin, XF.fin_add_fin, one_mul, zero_add,
    rhCell_fin h0 (by linarith)]

/-- C38: a day with minimum 283 K and temperatures 283 K + hour -/
example : ∃ out, disaggregateHumidity .modern ⟨[at00 0], [("tmin", [.fin 283])]⟩ "minimal"
    (some (hourlyS 0 1 fun _ h => .fin (283 + (h : ℝ)))) = .ok out ∧ (dayCells out 0)[0]? = some (.fin 100) := by
  have h : (⟨[at00 0], [("tmin", [.fin 283])]⟩ : Frame ℝ).col? "tmin" = some (dailyS 0 1 fun _ => .fin 283) := rfl
  obtain ⟨out, h1, h2⟩ := C38_minimal .modern _ none none none none 0 1 (by omega) _ (fun _ h => .fin (283 + (h : ℝ))) h
  obtain ⟨y, h3, h4, _⟩ := h2 0 (by omega) 283 rfl (by norm_num)
  refine ⟨out, h1, ?_⟩
  have := h3 0 (by omega) 283 (by norm_num) (le_refl _)
  rw [h4] at this
  exact this

/-- **C38 (regression).**  'dewpoint_regression' with a0 = 0 and a1 = 1 is the method 'minimal', for all arguments (also when it fails). -/
theorem C38_regression_minimal (api : PandasApi) (daily : Frame ℝ) (temp : Option (Series (XF ℝ))) (a0 a1 kr : Option ℝ)
    (table : Option (CatMeans ℝ)) (preserve : Bool) :
    disaggregateHumidity api daily "dewpoint_regression" temp (some 0) (some 1) kr table preserve =
      disaggregateHumidity api daily "minimal" temp a0 a1 kr table preserve := by
  unfold disaggregateHumidity humidityRaw humidityDewpoint
  simp only [true_or, or_true, not_true, if_false, if_true, reduceCtorEq, String.reduceEq]

/-- **C38 (values).**  'dewpoint_regression': on a day with minimum temperature `m` the dew point is `a0 + a1·m`, and an hour at temperature `t` gets the humidity
100·e(dew point)/e(t), limited to [0, 100], with the saturation vapour pressure `e` (both temperatures above 0.53 K). -/
theorem C38_values (api : PandasApi) (daily : Frame ℝ) (a0 a1 : ℝ) (kr : Option ℝ) (table : Option (CatMeans ℝ)) (d0 : Int) (n : Nat) (hn : 0 < n)
    (v : Nat → XF ℝ) (T : Nat → Nat → XF ℝ) (htmin : daily.col? "tmin" = some (dailyS d0 n v)) :
    ∃ out, disaggregateHumidity api daily "dewpoint_regression" (some (hourlyS d0 n T)) (some a0) (some a1) kr table = .ok out ∧
      ∀ i < n, ∀ m, v i = .fin m → 0.53 < a0 + a1 * m → ∀ h < 24, ∀ t, T i h = .fin t → 0.53 < t →
        (dayCells out (d0 + i))[(h : Nat)]? = some (.fin (relHum (a0 + a1 * m) t)) := by
  refine ⟨_, (hum_finish (raw_regression api daily a0 a1 kr table d0 n hn v T htmin)).1, ?_⟩
  intro i hi m hm h0 h hh t ht h1
  rw [dayCells_hourlyS d0 _ hi]
  unfold day24
  rw [List.getElem?_map, List.getElem?_range hh, Option.map_some, hm, ht, XF.fin_mul_fin, XF.fin_add_fin, rhCell_fin h0 h1]

/-- C38: a dew point of 5 + 0.98·283 K -/
example : ∃ out, disaggregateHumidity .modern ⟨[at00 0], [("tmin", [.fin 283])]⟩ "dewpoint_regression"
    (some (hourlyS 0 1 fun _ _ => .fin 290)) (some 5) (some 0.98) = .ok out ∧ (dayCells out 0)[13]? = some (.fin (relHum 282.34 290)) := by
  have h : (⟨[at00 0], [("tmin", [.fin 283])]⟩ : Frame ℝ).col? "tmin" = some (dailyS 0 1 fun _ => .fin 283) := rfl
  obtain ⟨out, h1, h2⟩ := C38_values .modern _ 5 0.98 none none 0 1 (by omega) _ (fun _ _ => .fin 290) h
  refine ⟨out, h1, ?_⟩
  have := h2 0 (by omega) 283 rfl (by norm_num) 13 (by omega) 290 rfl (by norm_num)
  rw [show (5 + 0.98 * 283 : ℝ) = 282.34 by norm_num] at this
  exact this

/-! ## C39 -/

/-- the humidity at temperature `t` in method 'min_max' -/
theorem minmax_cell {lo hi t0 t1 t : ℝ} (h : t0 < t1) :
    (XF.fin hi + (XF.fin t - XF.fin t0) / (XF.fin t1 - XF.fin t0) * (XF.fin lo - XF.fin hi) : XF ℝ) =
      .fin (hi + (t - t0) / (t1 - t0) * (lo - hi)) := by
  rw [XF.fin_sub_fin, XF.fin_sub_fin, XF.fin_sub_fin, XF.fin_div_fin_of_ne _ (by linarith), XF.fin_mul_fin, XF.fin_add_fin]

/-- **C39.**  Method 'min_max', a day with tmin `t0` < tmax `t1` and 0 ≤ hum_min `lo` ≤ hum_max `hi` ≤ 100: an hour at temperature `t` in
`[t0, t1]` gets `y t`, where `y` is linear with `y t0 = hi` and `y t1 = lo`; so the value is within `[lo, hi]`, and warmer hours are not more humid. -/
theorem C39_min_max (api : PandasApi) (daily : Frame ℝ) (a0 a1 kr : Option ℝ) (table : Option (CatMeans ℝ)) (d0 : Int) (n : Nat) (hn : 0 < n)
    (hmin hmax tmin tmax : Nat → XF ℝ) (T : Nat → Nat → XF ℝ)
    (c1 : daily.col? "hum_min" = some (dailyS d0 n hmin)) (c2 : daily.col? "hum_max" = some (dailyS d0 n hmax))
    (c3 : daily.col? "tmin" = some (dailyS d0 n tmin)) (c4 : daily.col? "tmax" = some (dailyS d0 n tmax)) :
    ∃ out, disaggregateHumidity api daily "min_max" (some (hourlyS d0 n T)) a0 a1 kr table = .ok out ∧
      ∀ i < n, ∀ lo hi t0 t1, hmin i = .fin lo → hmax i = .fin hi → tmin i = .fin t0 → tmax i = .fin t1 → 0 ≤ lo → lo ≤ hi → hi ≤ 100 →
        (t0 < t1 → ∃ y : ℝ → ℝ,
          (∀ h < 24, ∀ t, T i h = .fin t → t0 ≤ t → t ≤ t1 → (dayCells out (d0 + i))[(h : Nat)]? = some (.fin (y t))) ∧
          y t0 = hi ∧ y t1 = lo ∧ (∃ a b, ∀ t, y t = a + b * t) ∧ (∀ t, t0 ≤ t → t ≤ t1 → lo ≤ y t ∧ y t ≤ hi) ∧
          ∀ t u, t ≤ u → y u ≤ y t) ∧
        (t0 = t1 → ∀ h < 24, T i h = .fin t0 → (dayCells out (d0 + i))[(h : Nat)]? = some .nan) := by
  refine ⟨_, (hum_finish (raw_minmax api daily a0 a1 kr table d0 n hn hmin hmax tmin tmax T c1 c2 c3 c4)).1, ?_⟩
  intro i hi lo hh t0 t1 e1 e2 e3 e4 b0 b1 b2
  constructor
  · intro h01
    have hd : 0 < t1 - t0 := by linarith
    have range : ∀ t, t0 ≤ t → t ≤ t1 → lo ≤ hh + (t - t0) / (t1 - t0) * (lo - hh) ∧ hh + (t - t0) / (t1 - t0) * (lo - hh) ≤ hh := by
      intro t g0 g1
      have q0 : 0 ≤ (t - t0) / (t1 - t0) := div_nonneg (by linarith) hd.le
      have q1 : (t - t0) / (t1 - t0) ≤ 1 := (div_le_one hd).2 (by linarith)
      constructor <;> nlinarith
    refine ⟨fun t => hh + (t - t0) / (t1 - t0) * (lo - hh), ?_, ?_, ?_, ?_, range, ?_⟩
    · intro h hh' t ht g0 g1
      rw [dayCells_hourlyS d0 _ hi]
      unfold day24
      rw [List.getElem?_map, List.getElem?_range hh', Option.map_some, e1, e2, e3, e4, ht, minmax_cell h01]
      simp only [XF.clip]
      obtain ⟨r0, r1⟩ := range t g0 g1
      rw [max_eq_left (by linarith), min_eq_left (by linarith)]
    · simp
    · simp only
      rw [div_self hd.ne']; ring
    · refine ⟨hh - t0 / (t1 - t0) * (lo - hh), (lo - hh) / (t1 - t0), ?_⟩
      intro t
      field_simp
      ring
    · intro t u htu
      have : (t - t0) / (t1 - t0) ≤ (u - t0) / (t1 - t0) := div_le_div_of_nonneg_right (by linarith) hd.le
      simp only
      nlinarith
  · rintro rfl h hh' ht
    rw [dayCells_hourlyS d0 _ hi]
    unfold day24
    rw [List.getElem?_map, List.getElem?_range hh', Option.map_some, e1, e2, e3, e4, ht]
    simp [XF.clip]

/-- C39: humidity between 40 and 90 % for temperatures between 280 and 290 K -/
example : ∃ out, disaggregateHumidity .modern ⟨[at00 0], [("hum_min", [.fin 40]), ("hum_max", [.fin 90]), ("tmin", [.fin 280]),
    ("tmax", [.fin 290])]⟩ "min_max" (some (hourlyS 0 1 fun _ h => if h = 5 then .fin 280 else .fin 285)) = .ok out ∧
    (dayCells out 0)[5]? = some (.fin 90) := by
  let f : Frame ℝ := ⟨[at00 0], [("hum_min", [.fin 40]), ("hum_max", [.fin 90]), ("tmin", [.fin 280]), ("tmax", [.fin 290])]⟩
  obtain ⟨out, h1, h2⟩ := C39_min_max .modern f none none none none 0 1 (by omega) (fun _ => .fin 40) (fun _ => .fin 90) (fun _ => .fin 280)
    (fun _ => .fin 290) (fun _ h => if h = 5 then .fin 280 else .fin 285) rfl rfl rfl rfl
  refine ⟨out, h1, ?_⟩
  obtain ⟨y, h3, h4, _⟩ := (h2 0 (by omega) 40 90 280 290 rfl rfl rfl rfl (by norm_num) (by norm_num) (by norm_num)).1 (by norm_num)
  have := h3 5 (by omega) 280 rfl (le_refl _) (by norm_num)
  rw [h4] at this
  exact this

/-! ## C40 -/

/-- the diurnal term of eq. (21) of Debele et al. (2007) -/
noncomputable def diurnalTerm (kr : ℝ) (h : Nat) : ℝ := 1 / 2 * Real.sin (((h : ℝ) + 1) * Real.pi / kr - 3 * Real.pi / 4)

theorem sum_range_half (k : Nat) (f : Nat → ℝ) (hf : ∀ h, f (k + h) = -f h) : ((List.range (k + k)).map f).sum = 0 := by
  rw [List.range_add, List.map_append, List.map_map, List.sum_append]
  have : (List.range k).map (f ∘ fun x => k + x) = (List.range k).map fun h => -f h := by
    apply List.map_congr_left; intro h _; exact hf h
  rw [this]
  induction List.range k with
  | nil => simp
  | cons x l ih => simp only [List.map_cons, List.sum_cons]; linarith

theorem diurnal_sum (kr : ℝ) (hkr : kr = 6 ∨ kr = 12) : (day24 (diurnalTerm kr)).sum = 0 := by
  rcases hkr with rfl | rfl
  · have hp : ∀ h, diurnalTerm 6 (6 + h) = -diurnalTerm 6 h := by
      intro h
      unfold diurnalTerm
      have : (((6 + h : Nat) : ℝ) + 1) * Real.pi / 6 - 3 * Real.pi / 4 = ((h : ℝ) + 1) * Real.pi / 6 - 3 * Real.pi / 4 + Real.pi := by
        push_cast; ring
      rw [this, Real.sin_add_pi]; ring
    have h12 : ((List.range 12).map (diurnalTerm 6)).sum = 0 := sum_range_half 6 _ hp
    rw [day24_split, List.sum_append, h12, zero_add]
    have : ((List.range 12).map fun h => diurnalTerm 6 (12 + h)) = (List.range 12).map (diurnalTerm 6) := by
      apply List.map_congr_left
      intro h _
      rw [show 12 + h = 6 + (6 + h) by omega, hp, hp, neg_neg]
    rw [this, h12]
  · exact sum_range_half 12 _ fun h => by
      unfold diurnalTerm
      have : (((12 + h : Nat) : ℝ) + 1) * Real.pi / 12 - 3 * Real.pi / 4 = ((h : ℝ) + 1) * Real.pi / 12 - 3 * Real.pi / 4 + Real.pi := by
        push_cast; ring
      rw [this, Real.sin_add_pi]; ring

/-- **C40.**  Method 'linear_dewpoint_variation' with kr 6 or 12.  With daily dew points `D i = a0 + a1·tmin` the humidity of hour `h` of day `i`
is that for the dew point `D i + h/24·(D (i+1) - D i) + δ h` (last day: without the middle term) and the temperature of the hour, as long as
both are above 0.53 K; the term `δ` is the diurnal term, within ±0.5 K, and its sum over the 24 hours is 0. -/
theorem C40_linear_dewpoint (api : PandasApi) (daily : Frame ℝ) (a0 a1 kr : ℝ) (hkr : kr = 6 ∨ kr = 12) (table : Option (CatMeans ℝ))
    (d0 : Int) (n : Nat) (hn : 0 < n) (tmin : Nat → ℝ) (T : Nat → Nat → ℝ)
    (htmin : daily.col? "tmin" = some (dailyS d0 n fun i => .fin (tmin i))) :
    ∃ out δ, disaggregateHumidity api daily "linear_dewpoint_variation" (some (hourlyS d0 n fun i h => .fin (T i h)))
        (some a0) (some a1) (some kr) table = .ok out ∧
      δ = diurnalTerm kr ∧ (∀ h, |δ h| ≤ 1 / 2) ∧ (day24 δ).sum = 0 ∧
      ∀ i < n, ∀ h : Nat, h < 24 → ∀ td D next, D = a0 + a1 * tmin i → next = (if i + 1 < n then a0 + a1 * tmin (i + 1) else D) →
        td = D + (h : ℝ) / 24 * (next - D) + δ h → 0.53 < td → 0.53 < T i h →
        (dayCells out (d0 + i))[(h : Nat)]? = some (.fin (relHum td (T i h))) := by
  refine ⟨_, _, (hum_finish (raw_linear api daily a0 a1 kr hkr table d0 n hn _ _ htmin)).1, rfl, ?_, diurnal_sum kr hkr, ?_⟩
  · intro h
    unfold diurnalTerm
    rw [abs_mul, abs_of_pos (by norm_num : (0 : ℝ) < 1 / 2)]
    have := Real.abs_sin_le_one (((h : ℝ) + 1) * Real.pi / kr - 3 * Real.pi / 4)
    linarith
  · intro i hi h hh td D next hD hnext htd g1 g2
    rw [dayCells_hourlyS d0 _ hi]
    unfold day24
    rw [List.getElem?_map, List.getElem?_range hh, Option.map_some]
    have : linTdew kr n (fun i => .fin a0 + .fin a1 * .fin (tmin i)) i h = .fin td := by
      unfold linTdew tdewDelta
      have e : (if i + 1 < n then (.fin a0 + .fin a1 * .fin (tmin (i + 1)) : XF ℝ) else .fin a0 + .fin a1 * .fin (tmin i)) = .fin next := by
        rw [hnext, hD]; split <;> rfl
      rw [e]
      simp only [XF.fin_mul_fin, XF.fin_add_fin, XF.fin_sub_fin, XF.sin_fin]
      rw [htd, hD]
      unfold diurnalTerm
      congr 1
      push_cast
      norm_num
      ring
    rw [this, rhCell_fin g1 g2]

/-- C40 with two days and kr = 12: the dew point of the first hour of the first day -/
example : ∃ out, disaggregateHumidity .modern ⟨[at00 0, at00 1], [("tmin", [.fin 280, .fin 282])]⟩ "linear_dewpoint_variation"
    (some (hourlyS 0 2 fun _ _ => .fin 290)) (some 0) (some 1) (some 12) none = .ok out ∧
    (dayCells out 0)[8]? = some (.fin (relHum (280 + 8 / 24 * 2) 290)) := by
  have h : (⟨[at00 0, at00 1], [("tmin", [.fin 280, .fin 282])]⟩ : Frame ℝ).col? "tmin" =
      some (dailyS 0 2 fun i => .fin (if i = 0 then 280 else 282)) := rfl
  obtain ⟨out, δ, h1, rfl, _, _, h2⟩ := C40_linear_dewpoint .modern _ 0 1 12 (.inr rfl) none 0 2 (by omega) _ (fun _ _ => 290) h
  refine ⟨out, h1, ?_⟩
  have hd : diurnalTerm 12 8 = 0 := by
    unfold diurnalTerm
    rw [show (((8 : Nat) : ℝ) + 1) * Real.pi / 12 - 3 * Real.pi / 4 = 0 by push_cast; ring]
    simp
  have := h2 0 (by omega) 8 (by omega) (280 + 8 / 24 * 2) 280 282 (by norm_num) (by norm_num) (by rw [hd]; norm_num) (by norm_num) (by norm_num)
  exact this

/-- **C40 (options).**  A kr that is missing or neither 6 nor 12 raises AssertionError. -/
theorem C40_invalid_kr (api : PandasApi) (daily : Frame ℝ) (temp : Option (Series (XF ℝ))) (a0 a1 : ℝ) (kr : Option ℝ)
    (table : Option (CatMeans ℝ)) (preserve : Bool) (d0 : Int) (n : Nat) (hn : 0 < n) (v : Nat → XF ℝ)
    (htmin : daily.col? "tmin" = some (dailyS d0 n v)) (hkr : ∀ k, kr = some k → k ≠ 6 ∧ k ≠ 12) :
    disaggregateHumidity api daily "linear_dewpoint_variation" temp (some a0) (some a1) kr table preserve = .error .assertionError := by
  unfold disaggregateHumidity humidityRaw humidityDewpoint
  simp only [true_or, or_true, not_true, if_false, if_true, reduceCtorEq, String.reduceEq]
  rw [attr_ok htmin, py_ok_bind, dailyS_map d0 n v fun x => .fin a0 + .fin a1 * x, distributeEqually_daily api d0 hn, py_ok_bind]
  cases kr with
  | none => rfl
  | some k =>
    obtain ⟨k1, k2⟩ := hkr k rfl
    simp only [k1, k2, or_self, if_false]
    rfl

/-- C40: kr = 8 -/
example : disaggregateHumidity .modern ⟨[at00 0], [("tmin", [.fin 280])]⟩ "linear_dewpoint_variation" none (some 0) (some 1) (some 8) none =
    .error .assertionError :=
  C40_invalid_kr .modern _ none 0 1 (some 8) none false 0 1 (by omega) (fun _ => .fin 280) rfl (by rintro k ⟨⟩; norm_num)

/-! ## C41 -/

/-- **C41.**  Method 'month_hour_precip_mean', with `wet i` for positive precipitation on day `i` (a missing value counts as dry): if the table has
an entry for the category (month, hour, wet) of every hour, each hour gets the entry of its category (limited to [0, 100]); if some category
is missing, KeyError is raised. -/
theorem C41_categorical (api : PandasApi) (daily : Frame ℝ) (temp : Option (Series (XF ℝ))) (a0 a1 kr : Option ℝ) (table : CatMeans ℝ)
    (d0 : Int) (n : Nat) (hn : 0 < n) (precip : Nat → XF ℝ) (hp : daily.col? "precip" = some (dailyS d0 n precip))
    (hnod : (table.map Prod.fst).Nodup) (wet : Nat → Bool)
    (hwet : ∀ i < n, (precip i).NanOrFin ∧ (wet i = true ↔ ∃ x, precip i = .fin x ∧ 0 < x)) :
    let category := fun i h : Nat => (monthOf (atHour (d0 + i) h), (h : Int), wet i)
    ((∀ i < n, ∀ h < 24, category i h ∈ table.map Prod.fst) →
      ∃ out, disaggregateHumidity api daily "month_hour_precip_mean" temp a0 a1 kr (some table) = .ok out ∧
        ∀ i < n, ∀ h < 24, ∀ x, (category i h, x) ∈ table → (dayCells out (d0 + i))[(h : Nat)]? = some (x.clip 0 100)) ∧
    ((∃ i < n, ∃ h < 24, category i h ∉ table.map Prod.fst) → ∀ preserve,
      disaggregateHumidity api daily "month_hour_precip_mean" temp a0 a1 kr (some table) preserve = .error .keyError) := by
  intro category
  have hkey : ∀ i < n, ∀ h, catKey d0 precip i h = category i h := by
    intro i hi h
    simp only [catKey, category]
    congr 2
    obtain ⟨h1, h2⟩ := hwet i hi
    rw [Bool.eq_iff_iff, h2, decide_eq_true_iff]
    cases hx : precip i with
    | nan => simp
    | ninf => rw [hx] at h1; simp at h1
    | pinf => rw [hx] at h1; simp at h1
    | fin x => simp
  constructor
  · intro hall
    have hfind : ∀ i < n, ∀ h < 24, ∃ r, table.find? (fun r => r.1 == catKey d0 precip i h) = some r ∧ r ∈ table ∧ r.1 = category i h := by
      intro i hi h hh
      rw [hkey i hi h]
      have hs : (table.find? (fun r => r.1 == category i h)).isSome := by
        rw [List.find?_isSome]
        obtain ⟨r, hr, he⟩ := List.mem_map.1 (hall i hi h hh)
        exact ⟨r, hr, by simpa using he⟩
      obtain ⟨r, hr⟩ := Option.isSome_iff_exists.1 hs
      exact ⟨r, hr, List.mem_of_find?_eq_some hr, by simpa using List.find?_some hr⟩
    have hraw := raw_cat api daily temp a0 a1 kr table d0 n hn precip hp
      (fun i h => ((table.find? (fun r => r.1 == catKey d0 precip i h)).map Prod.snd).getD .nan) (by
        intro i hi h hh
        obtain ⟨r, hr, _⟩ := hfind i hi h hh
        exact ⟨r, hr, by rw [hr]; rfl⟩)
    refine ⟨_, (hum_finish hraw).1, ?_⟩
    intro i hi h hh x hx
    obtain ⟨r, hr, hmem, hk⟩ := hfind i hi h hh
    rw [dayCells_hourlyS d0 _ hi]
    unfold day24
    rw [List.getElem?_map, List.getElem?_range hh, Option.map_some, hr]
    simp only [Option.map_some, Option.getD_some]
    congr 2
    have : r = (category i h, x) := List.inj_on_of_nodup_map hnod hmem hx hk
    rw [this]
  · rintro ⟨i, hi, h, hh, hne⟩ preserve
    unfold disaggregateHumidity
    rw [raw_cat_missing api daily temp a0 a1 kr table d0 n hn precip hp ⟨i, hi, h, hh, ?_⟩]
    · rfl
    · rw [hkey i hi h, List.find?_eq_none]
      intro r hr he
      exact hne (List.mem_map.2 ⟨r, hr, by simpa using he⟩)

/-- C41: the example table covers a dry day in January; on a wet day the category is missing -/
example : (∀ i < 1, ∀ h < 24, (monthOf (atHour (0 + (i : Nat)) h), (h : Int), false) ∈ exampleTable.map Prod.fst) ∧
    (1, (0 : Int), true) ∉ exampleTable.map Prod.fst ∧ (exampleTable.map Prod.fst).Nodup := by
  have e : exampleTable.map Prod.fst = (List.range 24).map fun h : Nat => (1, (h : Int), false) := by
    unfold exampleTable; rw [List.map_map]; rfl
  rw [e]
  refine ⟨?_, by decide, by decide⟩
  intro i hi h hh
  obtain rfl : i = 0 := by omega
  rw [monthOf_atHour _ hh]
  exact List.mem_map.2 ⟨h, List.mem_range.2 hh, by congr⟩

end Melodist
