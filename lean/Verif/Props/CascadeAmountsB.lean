import Verif.Props.CascadeAmounts

/-!
# C169: how the 5-minute values of the cascade depend on the daily amounts
-/

set_option linter.unusedSectionVars false

namespace Melodist
open Spec

noncomputable section

/-- 5-minute sums of a series with a factor for each day -/
theorem resample5min_days (g : Int → ℝ) (s : Series ℝ) :
    resample5min (s.map fun r => (r.1, g (r.1 / DAY) * r.2)) = (resample5min s).map fun r => (r.1, g (r.1 / DAY) * r.2) := by
  have hi : Series.index (s.map fun r => (r.1, g (r.1 / DAY) * r.2)) = Series.index s := by simp [Series.index, Function.comp_def]
  unfold resample5min
  rw [hi]
  cases s.index.min? <;> cases s.index.max? <;> try rfl
  rename_i a b
  simp only [List.map_map]
  apply List.map_congr_left
  intro k _
  simp only [Function.comp_def, List.filter_map, List.map_map]
  congr 1
  rw [← List.sum_map_mul_left]
  congr 1
  apply List.map_congr_left
  intro r hr
  have hq : r.1 / (5 * MINUTE) = a / (5 * MINUTE) + (k : Int) := by simpa using (List.mem_filter.1 hr).2
  have hM : MINUTE = 60000000 := rfl
  have hD : DAY = 86400000000 := rfl
  have : r.1 / DAY = (a / (5 * MINUTE) + (k : Int)) * (5 * MINUTE) / DAY := by
    rw [← hq, hM, hD]
    omega
  rw [this]

theorem gridS_scaled {level : Nat} (hl : level ≤ 11) (d0 : Int) (n : Nat) (c : Nat → ℝ) (u : List ℝ) :
    gridS d0 n level (scaled (fun j => c (j / 2 ^ level)) u) = (gridS d0 n level u).map fun r => (r.1, c (r.1 / DAY - d0).toNat * r.2) := by
  unfold gridS
  rw [List.map_map]
  apply List.map_congr_left
  intro k _
  simp only [Function.comp_def]
  rw [scaled_getD, grid_day hl, add_sub_cancel_left, Int.toNat_natCast]

theorem dayCells_factor (s : Series ℝ) (g : Int → ℝ) (d : Int) : dayCells (s.map fun r => (r.1, g (r.1 / DAY) * r.2)) d = (dayCells s d).map (g d * ·) := by
  unfold dayCells
  rw [List.filter_map, List.map_map, List.map_map]
  apply List.map_congr_left
  intro r hr
  have : r.1 / 86400000000 = d := by simpa using (List.mem_filter.1 hr).2
  simp only [Function.comp_def]
  rw [show r.1 / DAY = d from this]

/-- **C169** (5 minutes) A run of the cascade with 5-minute output, and the daily amounts of day `i` multiplied by `c i > 0`, with the same statistics and random numbers.  If no daily amount and no box of the
first run is moved across the threshold of its level by its day's factor, the second run succeeds, has the same times, and all values of day `i` are `c i` times those of the first run. -/
theorem C169_five {api : PandasApi} {rnd : Nat → ℝ} {d0 : Int} {n : Nat} {v : Nat → XF ℝ} {opts : CascOptions ℝ} {level : Nat} {test : Bool} {r : CascadeOut ℝ}
    (h : disaggPrecCascade api rnd (dailyS d0 n v) opts false level 0 test = .ok r) {c : Nat → ℝ} (hc : ∀ i, 0 < c i) {thr : Nat → XF ℝ}
    (ht : ∀ l < level, ∃ s, statsOfLevel opts level l s (thr l))
    (h0 : ∀ i < n, ∀ x, v i = .fin x → 0 < x → (XF.lt (thr 0) (.fin x) ↔ XF.lt (thr 0) (.fin (c i * x))))
    (h1 : ∀ l, l + 1 < level → ∀ j y, (r.levels.getD l [])[j]? = some y → 0 < y → (XF.lt (thr (l + 1)) (.fin y) ↔ XF.lt (thr (l + 1)) (.fin (c (j / 2 ^ (l + 1)) * y)))) :
    ∃ r', disaggPrecCascade api rnd (dailyS d0 n fun i => .fin (c i) * v i) opts false level 0 test = .ok r' ∧ Series.index r'.series = Series.index r.series ∧
      ∀ i < n, dayCells r'.series (d0 + i) = (dayCells r.series (d0 + i)).map fun y => .fin (c i) * y := by
  obtain ⟨hl, w, levels, fine, s, hz, hlev1, ho, hlev, ha, e⟩ := disagg_inv h
  have elev : r.levels = levels := by rw [e]
  rw [dailyS_length] at hl
  rw [dailyS_values] at hz
  simp only [Bool.false_eq_true, if_false] at hlev ho hlev1
  have hz' : zeroMissing (Series.values (dailyS d0 n fun i => .fin (c i) * v i)) = .ok (scaled c w) := by
    have := zeroMissing_scaled c _ w 0 hz
    rw [dailyS_values]
    simp only [add_zero] at this
    rw [← this]
    congr 1
    apply List.ext_getElem?
    intro i
    rw [List.getElem?_mapIdx, List.getElem?_map, List.getElem?_map]
    by_cases hi : i < n
    · rw [List.getElem?_range hi]; rfl
    · rw [List.getElem?_eq_none (by simpa using hi)]; rfl
  obtain ⟨z1, z2⟩ := zeroMissing_ok hz
  have hlev' := levelLoop_scaled rnd opts level w c {} levels hc hlev (by
    intro k hk s' m hs' j y hj hy
    obtain ⟨s0, e0⟩ := ht k hk
    have e1 := statsOfLevel_levelStats e0
    rw [hs'] at e1
    cases e1
    cases k with
    | zero =>
      rw [pow_zero, Nat.div_one]
      have hj' : w[j]? = some y := hj
      have hjn : j < n := by
        have := (List.getElem?_eq_some_iff.1 hj').1
        rw [z1] at this
        simpa using this
      obtain ⟨f, g1, g2⟩ := z2 j (v j) (by simp [hjn])
      cases hv : v j with
      | fin x =>
        have := g1 x hv
        rw [hj'] at this
        cases this
        exact h0 j hjn y hv hy
      | nan =>
        have := g2 hv
        rw [hj'] at this
        cases this
        exact absurd hy (lt_irrefl _)
      | pinf => rw [hv] at f; exact f.elim
      | ninf => rw [hv] at f; exact f.elim
    | succ k => exact h1 k hk j y (by rw [elev]; exact hj) hy)
  have hlen := levelLoop_length hlev
  have hlast : (levels.mapIdx fun k l => scaled (fun j => c (j / 2 ^ (k + 1))) l).getLastD [] = scaled (fun j => c (j / 2 ^ level)) (levels.getLastD []) := by
    rw [List.getLastD_eq_getLast?, List.getLast?_eq_getElem?, List.getLastD_eq_getLast?, List.getLast?_eq_getElem?, List.length_mapIdx, List.getElem?_mapIdx, hlen,
      Nat.sub_add_cancel hlev1.1]
    cases levels[level - 1]? with
    | none => rfl
    | some l => rfl
  have hlw : (levels.getLastD []).length = n * 2 ^ level := by
    obtain ⟨l, rfl⟩ : ∃ l, level = l + 1 := ⟨level - 1, by omega⟩
    rw [(levelLoop_last hlev).length, z1]
    simp [mul_comm]
  have has : ∀ (x : Nat → XF ℝ) (u : List ℝ), u.length = n * 2 ^ level → assembleSeries api (Series.index (dailyS d0 n x)) false level u = .ok (u, resample5min (gridS d0 n level u)) := by
    intro x u hu
    unfold assembleSeries
    simp only [Bool.false_eq_true, if_false]
    rw [subLevelIndex_daily api d0 (by omega) x hlev1.2]
    simp only [bind, Except.bind]
    rw [make_grid hu]
  rw [has _ _ hlw] at ha
  cases ha
  set u := levels.getLastD [] with hu
  have ha' := has (fun i => .fin (c i) * v i) (scaled (fun j => c (j / 2 ^ level)) u) (by rw [scaled_length, hlw])
  have htest : ¬ (test = true ∧ level ≠ 9 ∧ level ≠ 10 ∧ level ≠ 11) := by
    intro hbad
    unfold disaggPrecCascade at h
    rw [if_neg (by rw [dailyS_length]; omega), dailyS_values, hz] at h
    simp only [bind, Except.bind, Bool.false_eq_true, if_false] at h
    rw [if_neg (by omega), ho] at h
    simp only at h
    rw [hlev] at h
    simp only at h
    rw [← hu, has _ _ hlw] at h
    simp only at h
    rw [if_pos ⟨hbad.1, trivial, hbad.2⟩] at h
    cases h
  have hrun : disaggPrecCascade api rnd (dailyS d0 n fun i => .fin (c i) * v i) opts false level 0 test =
      .ok ⟨levels.mapIdx fun k l => scaled (fun j => c (j / 2 ^ (k + 1))) l, scaled (fun j => c (j / 2 ^ level)) u,
      restoreMissing (((dailyS d0 n fun i => .fin (c i) * v i).filter fun r => r.2.isNan).map Prod.fst) (resample5min (gridS d0 n level (scaled (fun j => c (j / 2 ^ level)) u)))⟩ := by
    unfold disaggPrecCascade
    rw [if_neg (by rw [dailyS_length]; omega), hz']
    simp only [bind, Except.bind, Bool.false_eq_true, if_false]
    rw [if_neg (by omega), ho]
    simp only
    rw [hlev']
    simp only
    rw [hlast, ha']
    simp only
    rw [if_neg (fun hb => htest ⟨hb.1, hb.2.2⟩)]
    simp
  have hser : r.series = restoreMissing (((dailyS d0 n v).filter fun r => r.2.isNan).map Prod.fst) (resample5min (gridS d0 n level u)) := by
    rw [e]; simp
  refine ⟨_, hrun, ?_, fun i hi => ?_⟩
  · rw [hser]
    show Series.index (restoreMissing _ _) = _
    simp only [gridS_scaled hlev1.2, resample5min_days (fun d => c (d - d0).toNat)]
    simp [restoreMissing, Series.index, Function.comp_def]
  · rw [hser]
    show dayCells (restoreMissing _ _) _ = _
    rw [gridS_scaled hlev1.2, resample5min_days (fun d => c (d - d0).toNat), dayCells_restoreMissing, dayCells_restoreMissing, missing_contains d0 n v hi,
      missing_contains d0 n _ hi, dayCells_factor _ (fun d => c (d - d0).toNat), List.map_map, List.map_map]
    apply List.map_congr_left
    intro y _
    simp only [Function.comp_def]
    rw [add_sub_cancel_left, Int.toNat_natCast]
    have hnf : (v i).NanOrFin := (z2 i (v i) (by simp [hi])).1
    cases hv : v i with
    | pinf => rw [hv] at hnf; exact hnf.elim
    | ninf => rw [hv] at hnf; exact hnf.elim
    | nan => simp
    | fin x => simp [XF.isNan]

/-- **C169** (errors) Two daily records with the same missing and dry days whose amounts differ by at most the fraction `ρ < 1`, the same statistics and random numbers.  If no amount and no box of the first run
is within the fraction `ρ` of the threshold of its level, the 5-minute values of a day keep their shares of the day, each changes by at most the fraction `ρ` and by at most the difference of the daily
amounts, and the changes add up to that difference. -/
theorem C169_errors {api : PandasApi} {rnd : Nat → ℝ} {d0 : Int} {n : Nat} {v v' : Nat → XF ℝ} {opts : CascOptions ℝ} {level : Nat} {test : Bool} {r : CascadeOut ℝ}
    (h : disaggPrecCascade api rnd (dailyS d0 n v) opts false level 0 test = .ok r) {ρ : ℝ} (hρ0 : 0 ≤ ρ) (hρ : ρ < 1)
    (hv : ∀ i < n, (v i = .nan ∧ v' i = .nan) ∨ (v i = .fin 0 ∧ v' i = .fin 0) ∨ ∃ x x', v i = .fin x ∧ v' i = .fin x' ∧ 0 < x ∧ |x' - x| ≤ ρ * x)
    {thr : Nat → ℝ} (ht : ∀ l < level, ∃ s, statsOfLevel opts level l s (.fin (thr l))) (h0 : ∀ i < n, ∀ x, v i = .fin x → 0 < x → ρ * x < |x - thr 0|)
    (h1 : ∀ l, l + 1 < level → ∀ y ∈ r.levels.getD l [], 0 < y → ρ * y < |y - thr (l + 1)|) :
    ∃ r', disaggPrecCascade api rnd (dailyS d0 n v') opts false level 0 test = .ok r' ∧ Series.index r'.series = Series.index r.series ∧
      ∀ i < n, ∀ x x', v i = .fin x → v' i = .fin x' → ∃ ys ys' : List ℝ,
      dayCells r.series (d0 + i) = ys.map .fin ∧ dayCells r'.series (d0 + i) = ys'.map .fin ∧ ys.sum = x ∧ ys'.sum = x' ∧
      List.Forall₂ (fun y y' => 0 ≤ y ∧ x * y' = x' * y ∧ |y' - y| ≤ ρ * y ∧ |y' - y| ≤ |x' - x|) ys ys' ∧ ((ys.zip ys').map fun p => |p.2 - p.1|).sum = |x' - x| := by
  have hc : ∀ i, ∃ c : ℝ, 0 < c ∧ |c - 1| ≤ ρ ∧ (i < n → v' i = .fin c * v i) := by
    intro i
    by_cases hi : i < n
    · rcases hv i hi with ⟨a, b⟩ | ⟨a, b⟩ | ⟨x, x', a, b, hx, hd⟩
      · exact ⟨1, one_pos, by simpa using hρ0, fun _ => by rw [a, b, XF.mul_nan]⟩
      · exact ⟨1, one_pos, by simpa using hρ0, fun _ => by rw [a, b, XF.fin_mul_fin, mul_zero]⟩
      · have hd' := abs_le.1 hd
        refine ⟨x' / x, div_pos (by nlinarith) hx, ?_, fun _ => by rw [a, b, XF.fin_mul_fin, div_mul_cancel₀ _ hx.ne']⟩
        rw [div_sub_one hx.ne', abs_div, abs_of_pos hx, div_le_iff₀ hx]
        exact hd
    · exact ⟨1, one_pos, by simpa using hρ0, fun h => absurd h hi⟩
  choose c hc0 hc1 hc2 using hc
  have side : ∀ (i : Nat) (y t : ℝ), 0 < y → ρ * y < |y - t| → (XF.lt (.fin t) (.fin y) ↔ XF.lt (.fin t) (.fin (c i * y))) := by
    intro i y t hy hd
    have hb := abs_le.1 (hc1 i)
    simp only [XF.lt_fin]
    rcases le_total t y with hc | hc
    · rw [abs_of_nonneg (by linarith)] at hd
      constructor
      · intro _; nlinarith
      · intro _; nlinarith
    · rw [abs_of_nonpos (by linarith)] at hd
      constructor
      · intro hlt; linarith
      · intro hlt; nlinarith
  obtain ⟨r', hr', hidx, hcells⟩ := C169_five h hc0 ht (fun i hi x hx hp => side i x _ hp (h0 i hi x hx hp))
    fun l hl j y hj hy => side _ y _ hy (h1 l hl y (List.mem_of_getElem? hj) hy)
  have e : (dailyS d0 n fun i => .fin (c i) * v i) = dailyS d0 n v' := by
    unfold dailyS
    exact List.map_congr_left fun i hi => by rw [hc2 i (List.mem_range.1 hi)]
  rw [e] at hr'
  refine ⟨r', hr', hidx, fun i hi x x' hx hx' => ?_⟩
  have hx0 : 0 ≤ x := by
    rcases hv i hi with ⟨a, _⟩ | ⟨a, _⟩ | ⟨y, _, a, _, hy, _⟩ <;> rw [hx] at a <;> cases a
    · exact le_rfl
    · exact hy.le
  have hxx : x' = c i * x := by
    have := hc2 i hi
    rw [hx, hx', XF.fin_mul_fin] at this
    exact XF.fin.inj this
  obtain ⟨⟨ys, q1, q2⟩, q3⟩ := ((C20_cascade_5min api rnd opts level test d0 n v r h).2 i hi).2.1 x hx hx0
  have q3 : ∀ y ∈ ys, 0 ≤ y ∧ y ≤ x := fun y hy => q3 y (by rw [q1]; exact List.mem_map_of_mem hy)
  have hxd : |x' - x| = |c i - 1| * x := by
    rw [hxx, ← sub_one_mul, abs_mul, abs_of_nonneg hx0]
  have hdiff : ∀ y ∈ ys, |c i * y - y| = |c i - 1| * y := by
    intro y hy
    rw [← sub_one_mul, abs_mul, abs_of_nonneg (q3 y hy).1]
  refine ⟨ys, ys.map (c i * ·), q1, ?_, q2, ?_, ?_, ?_⟩
  · rw [hcells i hi, q1, List.map_map, List.map_map]
    rfl
  · rw [List.sum_map_mul_left, hxx, ← q2]
    simp
  · rw [List.forall₂_map_right_iff, List.forall₂_same]
    intro y hy
    refine ⟨(q3 y hy).1, by rw [hxx]; ring, ?_, ?_⟩
    · rw [hdiff y hy]
      exact mul_le_mul_of_nonneg_right (hc1 i) (q3 y hy).1
    · rw [hdiff y hy, hxd]
      exact mul_le_mul_of_nonneg_left (q3 y hy).2 (abs_nonneg _)
  · rw [hxd, ← q2]
    have e : ((ys.zip (ys.map (c i * ·))).map fun p => |p.2 - p.1|) = ys.map fun y => |c i * y - y| := by
      rw [List.zip_map_right, List.map_map, List.zip_eq_zipWith, List.zipWith_self, List.map_map]
      rfl
    rw [e, List.map_congr_left hdiff, List.sum_map_mul_left]
    simp

/-! ## a concrete case -/

/-- as `dailyThreshold`, for nine levels -/
def dailyThreshold9 : CascStats ℝ := { balancedStats with threshold := List.replicate 8 (.fin 0) ++ [.fin 5] }

/-- C169: days with 10 mm and 2 mm and a missing day; 5 % more on the first and 5 % less on the second day (both on their side of 5 mm), whatever the random numbers -/
example (rnd : Nat → ℝ) (hr : ∀ j, rnd j ≤ 1) :
    let v : Nat → XF ℝ := fun i => if i = 0 then .fin 10 else if i = 1 then .fin 2 else .nan
    let v' : Nat → XF ℝ := fun i => if i = 0 then .fin 10.5 else if i = 1 then .fin 1.9 else .nan
    ∃ r r', disaggPrecCascade .modern rnd (dailyS 0 3 v) (.one dailyThreshold9) false 9 0 false = .ok r ∧
      disaggPrecCascade .modern rnd (dailyS 0 3 v') (.one dailyThreshold9) false 9 0 false = .ok r' ∧ ∃ ys ys' : List ℝ,
      dayCells r.series (0 + (0 : Nat)) = ys.map .fin ∧ dayCells r'.series (0 + (0 : Nat)) = ys'.map .fin ∧ ys.sum = 10 ∧ ys'.sum = 10.5 ∧ List.Forall₂ (fun y y' => |y' - y| ≤ 0.05 * y) ys ys' := by
  intro v v'
  have huse : UsableOptions 9 (.one dailyThreshold9) := ⟨fun b t => ⟨fun _ => 1 / 7, fun k => rfl, by simp⟩, le_rfl⟩
  obtain ⟨r, h⟩ := C19_cascade_total_5min .modern rnd hr (.one dailyThreshold9) 9 (by norm_num) (by norm_num) huse 0 3 (by norm_num) v (fun i hi => by interval_cases i <;> simp [v]) 0
  obtain ⟨r', h', _, hd⟩ := C169_errors h (ρ := 0.05) (by norm_num) (by norm_num) (v' := v')
    (fun i hi => by
      interval_cases i
      · exact .inr (.inr ⟨10, 10.5, rfl, rfl, by norm_num, by norm_num⟩)
      · exact .inr (.inr ⟨2, 1.9, rfl, rfl, by norm_num, by norm_num [abs_of_neg]⟩)
      · exact .inl ⟨rfl, rfl⟩)
    (thr := fun l => if l = 0 then 5 else 0) (fun l hl => ⟨dailyThreshold9, rfl, by interval_cases l <;> rfl⟩)
    (fun i hi x hx _ => by
      interval_cases i
      · cases hx; norm_num
      · cases hx; norm_num [abs_of_neg]
      · cases hx)
    (fun l _ y _ hy => by
      rw [if_neg (Nat.succ_ne_zero l), sub_zero, abs_of_pos hy]
      linarith)
  obtain ⟨ys, ys', e1, e2, e3, e4, e5, _⟩ := hd 0 (by norm_num) 10 10.5 rfl rfl
  exact ⟨r, r', h, h', ys, ys', e1, e2, e3, e4, e5.imp fun _ _ h => h.2.2.1⟩

end

end Melodist
