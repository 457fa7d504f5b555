import Verif.Lemmas.Wind

/-!
# C32–C35, C78: wind speed
-/

set_option linter.unusedSectionVars false

namespace Melodist
open Spec

/-- the 24 values of day `i` in an array with one value per hour -/
def arrayDay {V : Type} (l : List V) (i : Nat) : List V := (l.drop (24 * i)).take 24

/-! ## C32 -/

/-- **C32.**  `disaggregate_wind(method='equal')` returns the daily mean in all 24 hours of its day (also a missing one). -/
theorem C32_wind_equal (api : PandasApi) (draw : Nat → ℝ) (d0 : Int) (n : Nat) (hn : 0 < n) (v : Nat → XF ℝ)
    (a b tShift : Option ℝ) :
    disaggregateWind api draw (dailyS d0 n v) "equal" a b tShift = .ok (.series (hourlyS d0 n fun i _ => v i)) := by
  unfold disaggregateWind
  rw [distributeEqually_daily api d0 hn]
  rfl

/-- C32 on two days -/
example : disaggregateWind .modern (fun _ => 1 / 2) (dailyS 0 2 fun i => .fin (i + 2)) =
    .ok (.series (hourlyS 0 2 fun i _ => .fin ((i : ℝ) + 2))) :=
  C32_wind_equal .modern _ 0 2 (by omega) _ none none none

/-! ## C33 -/

theorem wind_cosine (api : PandasApi) (draw : Nat → ℝ) (d0 : Int) (n : Nat) (hn : 0 < n) (v : Nat → XF ℝ) (a b tShift : ℝ) :
    disaggregateWind api draw (dailyS d0 n v) "cosine" (some a) (some b) (some tShift) =
      .ok (.array (Series.values (hourlyS d0 n fun i h => cosineCell a b tShift (v i) (h : Int)))) := by
  unfold disaggregateWind
  rw [distributeEqually_daily api d0 hn]
  show (Except.ok _ : Py WindResult) = _
  congr 2
  unfold hourlyS Series.values
  rw [List.map_map, List.map_map]
  apply List.map_congr_left
  intro k _
  simp only [Function.comp_def]
  rw [hourOf_atHour _ (Nat.mod_lt _ (by omega))]

/-- **C33 (mean).**  Cosine wind: the call returns one value per hour; on a day with daily mean `m` the 24 values have mean `b·m`,
whatever `a` and `t_shift`; a missing day stays missing. -/
theorem C33_wind_cosine_mean (api : PandasApi) (draw : Nat → ℝ) (d0 : Int) (n : Nat) (hn : 0 < n) (v : Nat → XF ℝ) (a b tShift : ℝ) :
    ∃ l, disaggregateWind api draw (dailyS d0 n v) "cosine" (some a) (some b) (some tShift) = .ok (.array l) ∧
      l.length = 24 * n ∧
      ∀ i < n, (∀ m, v i = .fin m → MeanIs (arrayDay l i) (b * m)) ∧ (v i = .nan → AllNan (arrayDay l i)) := by
  refine ⟨_, wind_cosine api draw d0 n hn v a b tShift, by simp [Series.values], ?_⟩
  intro i hi
  unfold arrayDay
  rw [values_day d0 _ hi]
  constructor
  · intro m hm
    refine ⟨day24 fun h : Nat => a * m * Real.cos (Real.pi * ((h : ℝ) - tShift) / 12) + b * m, ?_, ?_, ?_⟩
    · rw [day24_map]
      apply day24_congr
      intro h _
      rw [hm, cosineCell_fin]
    · intro e
      have := congrArg List.length e
      simp at this
    · rw [sum_day24_add, sum_day24_mul, cos_day_sum, sum_day24_const, day24_length]
      push_cast
      ring
  · intro hv c hc
    obtain ⟨h, _, rfl⟩ := mem_day24.1 hc
    rw [hv]
    unfold cosineCell
    simp

/-- **C33 (range).**  For a non-negative daily mean `m` every hourly value lies between `(b-|a|)·m` and `(b+|a|)·m`; hence it is
not negative when `b ≥ |a|`. -/
theorem C33_wind_cosine_range (api : PandasApi) (draw : Nat → ℝ) (d0 : Int) (n : Nat) (hn : 0 < n) (v : Nat → XF ℝ) (a b tShift : ℝ) :
    ∃ l, disaggregateWind api draw (dailyS d0 n v) "cosine" (some a) (some b) (some tShift) = .ok (.array l) ∧
      ∀ i < n, ∀ m, v i = .fin m → 0 ≤ m → ∀ c ∈ arrayDay l i, ∃ y, c = .fin y ∧
        (b - |a|) * m ≤ y ∧ y ≤ (b + |a|) * m ∧ (|a| ≤ b → 0 ≤ y) := by
  refine ⟨_, wind_cosine api draw d0 n hn v a b tShift, ?_⟩
  intro i hi m hm h0 c hc
  unfold arrayDay at hc
  rw [values_day d0 _ hi] at hc
  obtain ⟨h, _, rfl⟩ := mem_day24.1 hc
  refine ⟨_, by rw [hm, cosineCell_fin], ?_⟩
  have hcos : |a * Real.cos (Real.pi * ((h : ℝ) - tShift) / 12)| ≤ |a| := by
    rw [abs_mul]
    exact mul_le_of_le_one_right (abs_nonneg a) (Real.abs_cos_le_one _)
  obtain ⟨hl, hu⟩ := abs_le.1 hcos
  have e : ∀ c : ℝ, a * m * c + b * m = (a * c + b) * m := fun c => by ring
  rw [e]
  refine ⟨mul_le_mul_of_nonneg_right (by linarith) h0, mul_le_mul_of_nonneg_right (by linarith) h0, ?_⟩
  intro hab
  exact mul_nonneg (by linarith) h0

/-- the hour of the strongest wind: at `t_shift` the value is exactly `(a+b)·m`, twelve hours later `(b-a)·m` -/
theorem C33_wind_cosine_peak (api : PandasApi) (draw : Nat → ℝ) (d0 : Int) (n : Nat) (hn : 0 < n) (v : Nat → XF ℝ) (a b : ℝ)
    (h : Nat) (hh : h < 12) :
    ∃ l, disaggregateWind api draw (dailyS d0 n v) "cosine" (some a) (some b) (some (h : ℝ)) = .ok (.array l) ∧
      ∀ i < n, ∀ m, v i = .fin m →
        (arrayDay l i)[(h : Nat)]? = some (.fin ((a + b) * m)) ∧ (arrayDay l i)[h + 12]? = some (.fin ((b - a) * m)) := by
  refine ⟨_, wind_cosine api draw d0 n hn v a b h, ?_⟩
  intro i hi m hm
  unfold arrayDay
  rw [values_day d0 _ hi]
  have get : ∀ k : Nat, k < 24 → (day24 fun h_1 : Nat => cosineCell a b (h : ℝ) (v i) (h_1 : Int))[k]? =
      some (cosineCell a b (h : ℝ) (v i) (k : Int)) := by
    intro k hk
    unfold day24
    rw [List.getElem?_map, List.getElem?_range hk]
    rfl
  rw [get h (by omega), get (h + 12) (by omega), hm, cosineCell_fin, cosineCell_fin]
  refine ⟨?_, ?_⟩
  · congr 2
    rw [sub_self, mul_zero, zero_div, Real.cos_zero]
    ring
  · congr 2
    rw [show Real.pi * (((h + 12 : Nat) : ℝ) - (h : ℝ)) / 12 = Real.pi by push_cast; ring, Real.cos_pi]
    ring

/-- **C33 (course).**  The value of hour `h` of a day with mean `m` is `m·(b + a·cos(2π(h - t_shift)/24))`, so it is the same course on all days, scaled. -/
theorem C33_course (api : PandasApi) (draw : Nat → ℝ) (d0 : Int) (n : Nat) (hn : 0 < n) (v : Nat → XF ℝ) (a b tShift : ℝ) :
    ∃ l, disaggregateWind api draw (dailyS d0 n v) "cosine" (some a) (some b) (some tShift) = .ok (.array l) ∧ l.length = 24 * n ∧
      ∀ i < n, ∀ m, v i = .fin m → ∀ h : Nat, h < 24 →
        l[24 * i + h]? = some (.fin (m * (b + a * Real.cos (2 * Real.pi * ((h : ℝ) - tShift) / 24)))) := by
  refine ⟨_, wind_cosine api draw d0 n hn v a b tShift, by simp [Series.values, hourlyS], ?_⟩
  intro i hi m hm h hh
  unfold Series.values hourlyS
  rw [List.map_map, List.getElem?_map, List.getElem?_range (by omega)]
  simp only [Option.map_some, Function.comp_def]
  rw [show (24 * i + h) / 24 = i by omega, show (24 * i + h) % 24 = h by omega, hm, cosineCell_fin]
  congr 2
  rw [show 2 * Real.pi * ((h : ℝ) - tShift) / 24 = Real.pi * ((h : ℝ) - tShift) / 12 by ring]
  push_cast
  ring

/-- C33 on a day with mean 3: a = b = 1, t_shift = 12 gives 3 at hour 6 -/
example : ∃ l, disaggregateWind .modern (fun _ => 0) (dailyS 0 1 fun _ => .fin 3) "cosine" (some 1) (some 1) (some 12) = .ok (.array l) ∧
    l[6]? = some (.fin 3) := by
  obtain ⟨l, h1, -, h2⟩ := C33_course .modern (fun _ => 0) 0 1 (by omega) (fun _ => .fin 3) 1 1 12
  refine ⟨l, h1, ?_⟩
  have := h2 0 (by omega) 3 rfl 6 (by omega)
  rw [this]
  congr 2
  rw [show 2 * Real.pi * (((6 : Nat) : ℝ) - 12) / 24 = -(Real.pi / 2) by push_cast; ring, Real.cos_neg, Real.cos_pi_div_two]
  norm_num

/-! ## C34 -/

theorem wind_random (api : PandasApi) (draw : Nat → ℝ) (d0 : Int) (n : Nat) (hn : 0 < n) (v : Nat → XF ℝ) (a b tShift : Option ℝ) :
    disaggregateWind api draw (dailyS d0 n v) "random" a b tShift =
      .ok (.series (hourlyS d0 n fun i h => v i * XF.powPos 0.3 (-(XF.log (.fin (draw (24 * i + h))))))) := by
  unfold disaggregateWind
  rw [distributeEqually_daily api d0 hn]
  show (Except.ok _ : Py WindResult) = _
  congr 2
  exact zipIdx_hourlyS d0 n _ fun x k => x * XF.powPos 0.3 (-(XF.log (.fin (draw k))))

theorem powPos_log {u : ℝ} (h0 : 0 < u) (h1 : u < 1) :
    XF.powPos 0.3 (-(XF.log (.fin u))) = .fin ((-Real.log u) ^ (0.3 : ℝ)) := by
  rw [XF.log_fin h0]
  show XF.powPos 0.3 (.fin (-Real.log u)) = _
  exact if_pos (by have := Real.log_neg h0 h1; linarith)

/-- **C34.**  Random wind, draws in (0,1): on a day with mean `m` the hour with draw `u` gets `m·(-ln u)^0.3`; hence for `m ≥ 0` no value
is negative, a calm day stays calm, larger draws give smaller wind; a missing day stays missing. -/
theorem C34_wind_random (api : PandasApi) (draw : Nat → ℝ) (hdraw : ∀ k, 0 < draw k ∧ draw k < 1) (d0 : Int) (n : Nat) (hn : 0 < n)
    (v : Nat → XF ℝ) (a b tShift : Option ℝ) :
    ∃ g : Nat → Nat → XF ℝ, disaggregateWind api draw (dailyS d0 n v) "random" a b tShift = .ok (.series (hourlyS d0 n g)) ∧
      ∀ i < n, (v i = .nan → ∀ h < 24, g i h = .nan) ∧ ∀ m, v i = .fin m →
        (∀ h < 24, ∃ y, g i h = .fin y ∧ y = m * (-Real.log (draw (24 * i + h))) ^ (0.3 : ℝ) ∧ (0 ≤ m → 0 ≤ y) ∧ (0 < m → 0 < y) ∧ (m = 0 → y = 0)) ∧
        (0 < m → ∀ h < 24, ∀ h' < 24, ∀ y y', g i h = .fin y → g i h' = .fin y' →
          draw (24 * i + h) < draw (24 * i + h') → y' < y) := by
  refine ⟨_, wind_random api draw d0 n hn v a b tShift, ?_⟩
  intro i hi
  refine ⟨?_, ?_⟩
  · intro hv h _
    simp [hv]
  · intro m hm
    have e : ∀ h, v i * XF.powPos 0.3 (-(XF.log (.fin (draw (24 * i + h))))) =
        .fin (m * (-Real.log (draw (24 * i + h))) ^ (0.3 : ℝ)) := by
      intro h
      rw [hm, powPos_log (hdraw _).1 (hdraw _).2, XF.fin_mul_fin]
    have hlog : ∀ k, 0 < -Real.log (draw k) := by
      intro k
      have := Real.log_neg (hdraw k).1 (hdraw k).2
      linarith
    refine ⟨?_, ?_⟩
    · intro h _
      refine ⟨_, e h, rfl, ?_, ?_, ?_⟩
      · intro h0; exact mul_nonneg h0 (Real.rpow_nonneg (hlog _).le _)
      · intro h0; exact mul_pos h0 (Real.rpow_pos_of_pos (hlog _) _)
      · rintro rfl; simp
    · intro h0 h _ h' _ y y' hy hy' hlt
      rw [e] at hy hy'
      injection hy with hy
      injection hy' with hy'
      rw [← hy, ← hy']
      apply mul_lt_mul_of_pos_left _ h0
      apply Real.rpow_lt_rpow (hlog _).le _ (by norm_num)
      have := Real.log_lt_log (hdraw (24 * i + h)).1 hlt
      linarith

/-- **C34 (draw 0).**  `np.random.rand` may return 0: such an hour is infinite on a windy day and NaN on a calm one. -/
theorem C34_wind_random_zero_draw (api : PandasApi) (draw : Nat → ℝ) (d0 : Int) (n : Nat) (hn : 0 < n)
    (v : Nat → XF ℝ) (a b tShift : Option ℝ) (i h : Nat) (hi : i < n) (hh : h < 24) (h0 : draw (24 * i + h) = 0) :
    ∃ s, disaggregateWind api draw (dailyS d0 n v) "random" a b tShift = .ok (.series s) ∧
      (∀ m, v i = .fin m → 0 < m → s.at? (atHour (d0 + i) h) = some .pinf) ∧
      (v i = .fin 0 → s.at? (atHour (d0 + i) h) = some .nan) := by
  refine ⟨_, wind_random api draw d0 n hn v a b tShift, ?_, ?_⟩
  · intro m hm hpos
    rw [hourlyS_at? d0 _ hi hh, h0, hm]
    have : XF.powPos 0.3 (-(XF.log (.fin (0 : ℝ)))) = .pinf := by
      unfold XF.log; simp; rfl
    rw [this]
    congr 1
    show XF.infOfSign m = _
    exact if_pos hpos
  · intro hm
    rw [hourlyS_at? d0 _ hi hh, h0, hm]
    have : XF.powPos 0.3 (-(XF.log (.fin (0 : ℝ)))) = .pinf := by
      unfold XF.log; simp; rfl
    rw [this]
    congr 1
    show XF.infOfSign (0 : ℝ) = _
    unfold XF.infOfSign
    simp

/-! ## C35 -/

/-- **C35.**  An unknown method raises AssertionError; 'cosine' with a missing parameter raises AssertionError; every other call on a
non-empty gap-free daily series returns one value per hour of these days. -/
theorem C35_wind_options (api : PandasApi) (draw : Nat → ℝ) (method : String) (a b tShift : Option ℝ) :
    (∀ daily, method ∉ ["equal", "cosine", "random"] →
      disaggregateWind api draw daily method a b tShift = .error .assertionError) ∧
    (∀ (d0 : Int) (n : Nat) (v : Nat → XF ℝ), 0 < n → method = "cosine" → (a = none ∨ b = none ∨ tShift = none) →
      disaggregateWind api draw (dailyS d0 n v) method a b tShift = .error .assertionError) ∧
    (∀ (d0 : Int) (n : Nat) (v : Nat → XF ℝ), 0 < n → method ∈ ["equal", "cosine", "random"] →
      (method = "cosine" → a.isSome ∧ b.isSome ∧ tShift.isSome) →
      ∃ r, disaggregateWind api draw (dailyS d0 n v) method a b tShift = .ok r ∧ r.values.length = 24 * n) := by
  refine ⟨?_, ?_, ?_⟩
  · intro daily hm
    unfold disaggregateWind
    rw [if_pos (by simpa using hm)]
    rfl
  · intro d0 n v hn hm hnone
    subst hm
    unfold disaggregateWind
    rw [distributeEqually_daily api d0 hn]
    cases a <;> cases b <;> cases tShift <;> first | rfl | simp at hnone
  · intro d0 n v hn hm hsome
    simp only [List.mem_cons, List.not_mem_nil, or_false] at hm
    rcases hm with rfl | rfl | rfl
    · exact ⟨_, C32_wind_equal api draw d0 n hn v a b tShift, by simp [WindResult.values, Series.values]⟩
    · obtain ⟨ha, hb, ht⟩ := hsome rfl
      obtain ⟨a, rfl⟩ := Option.isSome_iff_exists.1 ha
      obtain ⟨b, rfl⟩ := Option.isSome_iff_exists.1 hb
      obtain ⟨tShift, rfl⟩ := Option.isSome_iff_exists.1 ht
      exact ⟨_, wind_cosine api draw d0 n hn v a b tShift, by simp [WindResult.values, Series.values]⟩
    · exact ⟨_, wind_random api draw d0 n hn v a b tShift, by simp [WindResult.values, Series.values]⟩

/-! ## C78 -/

/-- parameters `p = (a, b, t_shift)` with the least sum of squared residuals of `a·m·cos(π(h - t_shift)/12) + b·m - y` over the rows
`(m, h, y)` -/
def IsLeastSquares (rows : List (ℝ × Int × ℝ)) (p : ℝ × ℝ × ℝ) : Prop :=
  ∀ q : ℝ × ℝ × ℝ,
    (rows.map fun r => (p.1 * r.1 * Real.cos (Real.pi * ((r.2.1 : ℝ) - p.2.2) / 12) + p.2.1 * r.1 - r.2.2) ^ 2).sum ≤
    (rows.map fun r => (q.1 * r.1 * Real.cos (Real.pi * ((r.2.1 : ℝ) - q.2.2) / 12) + q.2.1 * r.1 - r.2.2) ^ 2).sum

/-- **C78.**  Fit to complete days: if the optimiser finds a least-squares solution, the fitted `b` is 1 (unless all daily means are 0), so that
disaggregating with the fitted parameters preserves every daily mean. -/
theorem C78_fit_preserves_mean (api : PandasApi) (optimise : List (ℝ × Int × ℝ) → Py (ℝ × ℝ × ℝ))
    (hopt : ∀ rows p, optimise rows = .ok p → IsLeastSquares rows p)
    (d0 : Int) (n : Nat) (hn : 0 < n) (f : Nat → Nat → ℝ) (hwind : ∃ i < n, (day24 (f i)).sum ≠ 0)
    (a b tShift : ℝ) (hfit : fitCosineFunction optimise (hourlyS d0 n fun i h => .fin (f i h)) = .ok (a, b, tShift)) :
    b = 1 ∧ ∀ (draw : Nat → ℝ) (d1 : Int) (m : Nat) (v : Nat → ℝ), 0 < m →
      ∃ l, disaggregateWind api draw (dailyS d1 m fun i => .fin (v i)) "cosine" (some a) (some b) (some tShift) = .ok (.array l) ∧
        ∀ i < m, MeanIs (arrayDay l i) (v i) := by
  have hb : b = 1 := by
    unfold fitCosineFunction at hfit
    rw [fitRows_hourly d0 n f] at hfit
    have hls := hopt _ _ hfit
    -- move `b` along the direction of steepest descent
    apply fit_b_eq_one n f hwind a b tShift
    intro b'
    have := hls (a, b', tShift)
    simp only [List.map_map, Function.comp_def] at this
    exact this
  refine ⟨hb, ?_⟩
  intro draw d1 m v hm
  obtain ⟨l, h1, _, h2⟩ := C33_wind_cosine_mean api draw d1 m hm (fun i => .fin (v i)) a b tShift
  refine ⟨l, h1, ?_⟩
  intro i hi
  have := (h2 i hi).1 (v i) rfl
  rwa [hb, one_mul] at this

/-- C78: one day with 1 m/s before and 3 m/s after noon has a non-zero mean; its rows are passed to the optimiser with daily mean 2. -/
example : (∃ i < 1, (day24 ((fun _ h => if h < 12 then 1 else 3) i : Nat → ℝ)).sum ≠ 0) ∧
    fitRows (hourlyS 0 1 fun _ h => .fin (if h < 12 then (1 : ℝ) else 3)) =
      .ok ((List.range 24).map fun k : Nat => (2, (k : Int), if k < 12 then (1 : ℝ) else 3)) := by
  have hs : (day24 ((fun h => if h < 12 then 1 else 3) : Nat → ℝ)).sum = 48 := by
    norm_num [day24, List.range_succ]
  refine ⟨⟨0, by omega, by rw [show _ = (48 : ℝ) from hs]; norm_num⟩, ?_⟩
  rw [fitRows_hourly 0 1 fun _ h => if h < 12 then (1 : ℝ) else 3]
  congr 1
  apply List.map_congr_left
  intro k hk
  have hk : k < 24 := List.mem_range.1 hk
  rw [hs, Nat.mod_eq_of_lt hk]
  norm_num

end Melodist
