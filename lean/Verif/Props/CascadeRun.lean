import Verif.Lemmas.CascadeRun

/-!
# C19, C20, C31: when the cascade returns, 5-minute output, which statistics drive which level
-/

set_option linter.unusedSectionVars false

namespace Melodist
open Spec

variable {K : Type} [Field K] [LinearOrder K] [IsStrictOrderedRing K]

/-- a histogram set is usable: the seven weights of every intensity class and box type are numbers adding up to at least 1 -/
def UsableWeights (s : CascStats K) : Prop :=
  ∀ b t, ∃ w : Fin 7 → K, (∀ k, s.wxx k b t = .fin (w k)) ∧ 1 ≤ ∑ k, w k

/-- options usable for `si` levels -/
def UsableOptions (si : Nat) : CascOptions K → Prop
  | .one s => UsableWeights s ∧ si ≤ s.threshold.length
  | .many l => l.length = si ∧ ∀ s ∈ l, UsableWeights s ∧ s.threshold ≠ []
  | .other => False

theorem UsableOptions.levelStats {si : Nat} {opts : CascOptions K} (h : UsableOptions si opts) :
    checkOptions opts si = .ok () ∧ ∀ j < si, ∃ s mv, levelStats opts j = .ok (s, mv) ∧ WeightsOk s := by
  cases opts with
  | one s =>
    refine ⟨rfl, fun j hj => ?_⟩
    obtain ⟨h1, h2⟩ := h
    unfold Melodist.levelStats
    refine ⟨s, s.threshold[j]'(by omega), ?_, h1⟩
    simp only [List.getElem?_eq_getElem (show j < s.threshold.length by omega)]
  | many l =>
    obtain ⟨h1, h2⟩ := h
    refine ⟨by simp [checkOptions, h1], fun j hj => ?_⟩
    have hj' : j < l.length := by omega
    obtain ⟨h3, h4⟩ := h2 l[j] (List.getElem_mem _)
    unfold Melodist.levelStats
    refine ⟨l[j], l[j].threshold[0]'(by have := List.length_pos_iff.2 h4; omega), ?_, h3⟩
    simp only [List.getElem?_eq_getElem hj',
      List.getElem?_eq_getElem (show 0 < l[j].threshold.length by have := List.length_pos_iff.2 h4; omega)]
  | other => exact absurd h (by simp [UsableOptions])

theorem cascade_levels_ok {rnd : Nat → K} (hr : ∀ j, rnd j ≤ 1) {si : Nat} {opts : CascOptions K} (ho : UsableOptions si opts)
    (n : Nat) (hn : 2 ≤ n) (v : Nat → XF K) (hv : ∀ i < n, v i = .nan ∨ ∃ x, 0 ≤ x ∧ v i = .fin x) :
    ∃ w, zeroMissing ((List.range n).map v) = .ok w ∧ w.length = n ∧ ∃ ls, levelLoop rnd opts si w {} = .ok ls := by
  obtain ⟨w, hw⟩ := zeroMissing_of_nanOrFin (l := (List.range n).map v) (by
    intro c hc
    obtain ⟨i, hi, rfl⟩ := List.mem_map.1 hc
    rcases hv i (List.mem_range.1 hi) with h | ⟨x, _, h⟩ <;> rw [h] <;> simp)
  obtain ⟨z1, z2⟩ := zeroMissing_ok hw
  have hlen : w.length = n := by simpa using z1
  refine ⟨w, hw, hlen, levelLoop_ok hr si ho.levelStats.2 w {} ?_ (by omega)⟩
  intro y hy
  obtain ⟨i, hi, rfl⟩ := List.getElem_of_mem hy
  have hin : i < n := by omega
  have hz := z2 i (v i) (by simp [hin])
  rcases hv i hin with h | ⟨x, hx, h⟩
  · have := hz.2.2 h
    rw [List.getElem?_eq_getElem hi] at this
    injection this with this; rw [this]
  · have := hz.2.1 x h
    rw [List.getElem?_eq_getElem hi] at this
    injection this with this; rw [this]; exact hx

/-- **C19.** With usable statistics (histograms adding up to at least 1, enough thresholds) and random numbers below 1 (1 itself would do), the hourly
cascade succeeds on every gap-free series of at least two days whose values are missing or non-negative. -/
theorem C19_cascade_total (api : PandasApi) (rnd : Nat → K) (hr : ∀ j, rnd j ≤ 1) (opts : CascOptions K) (ho : UsableOptions 5 opts)
    (d0 : Int) (n : Nat) (hn : 2 ≤ n) (v : Nat → XF K) (hv : ∀ i < n, v i = .nan ∨ ∃ x, 0 ≤ x ∧ v i = .fin x) (level : Nat)
    (shift : Int) (test : Bool) :
    ∃ r, disaggPrecCascade api rnd (dailyS d0 n v) opts true level shift test = .ok r := by
  obtain ⟨w, hw, hlen, ls, hls⟩ := cascade_levels_ok hr ho n hn v hv
  have hb := levelLoop_last hls
  have hq := hb.trans (quarterHours_split _ hb.nonneg)
  have hl : (hourlyFromQuarter (quarterHours (ls.getLastD []))).length = 24 * n := by
    rw [hourlyFromQuarter_eq, (BlockSplit.agg (m := 24) hq).length, hlen]
  have hm := make_hourly (d0 := d0) (n := n) _ hl (fun _ _ => 0)
  unfold disaggPrecCascade
  rw [if_neg (by simp; omega), dailyS_values, hw]
  simp only [if_true, bind, Except.bind]
  rw [if_neg (by omega), ho.levelStats.1, hls]
  simp only [assembleSeries, if_true, bind, Except.bind]
  rw [hourlyIndex_daily api d0 (by omega : 0 < n) v false (fun _ _ => XF.nan),
    show Series.index (hourlyS d0 n fun _ _ => (XF.nan : XF K)) = Series.index (hourlyS d0 n fun _ _ => (0 : K)) by
      rw [hourlyS_index, hourlyS_index]]
  simp only
  rw [hm]
  simp

/-- **C19**, 5-minute output of any level 1..11. -/
theorem C19_cascade_total_5min (api : PandasApi) (rnd : Nat → K) (hr : ∀ j, rnd j ≤ 1) (opts : CascOptions K) (level : Nat)
    (h1 : 1 ≤ level) (h11 : level ≤ 11) (ho : UsableOptions level opts)
    (d0 : Int) (n : Nat) (hn : 2 ≤ n) (v : Nat → XF K) (hv : ∀ i < n, v i = .nan ∨ ∃ x, 0 ≤ x ∧ v i = .fin x) (shift : Int) :
    ∃ r, disaggPrecCascade api rnd (dailyS d0 n v) opts false level shift false = .ok r := by
  obtain ⟨w, hw, hlen, ls, hls⟩ := cascade_levels_ok hr ho n hn v hv
  obtain ⟨l, rfl⟩ : ∃ l, level = l + 1 := ⟨level - 1, by omega⟩
  have hb := levelLoop_last hls
  have hl : (ls.getLastD []).length = n * 2 ^ (l + 1) := by rw [hb.length, hlen, mul_comm]
  unfold disaggPrecCascade
  rw [if_neg (by simp; omega), dailyS_values, hw]
  simp only [Bool.false_eq_true, if_false, bind, Except.bind]
  rw [if_neg (by omega), ho.levelStats.1, hls]
  simp only [assembleSeries, Bool.false_eq_true, if_false, bind, Except.bind]
  rw [subLevelIndex_daily api d0 (by omega) v h11]
  simp only
  rw [make_grid hl]
  simp

/-- **C19**, errors.  `si` is the number of levels: 5 for hourly output, `level` otherwise. -/
theorem C19_cascade_errors (api : PandasApi) (rnd : Nat → K) (daily : Series (XF K)) (opts : CascOptions K) (hourly : Bool) (level : Nat)
    (shift : Int) (test : Bool) (si : Nat) (hsi : si = if hourly then 5 else level) :
    (daily.length < 2 → disaggPrecCascade api rnd daily opts hourly level shift test = .error .valueError) ∧
    (2 ≤ daily.length → (∀ r ∈ daily, r.2.NanOrFin) → 1 ≤ si → si ≤ 11 →
      (∀ l, opts = .many l → l.length ≠ si →
        disaggPrecCascade api rnd daily opts hourly level shift test = .error .valueError) ∧
      (opts = .other → disaggPrecCascade api rnd daily opts hourly level shift test = .error .typeError) ∧
      (∀ s, opts = .one s → s.threshold.length < si →
        disaggPrecCascade api rnd daily opts hourly level shift test = .error .indexError)) := by
  constructor
  · intro h; unfold disaggPrecCascade; rw [if_pos h]
  · intro h2 hc h1 h11
    obtain ⟨w, hw⟩ := zeroMissing_of_nanOrFin (l := daily.values) (by
      intro c hcm
      obtain ⟨r, hr, rfl⟩ := List.mem_map.1 hcm
      exact hc r hr)
    have hred : disaggPrecCascade api rnd daily opts hourly level shift test = (do
        checkOptions opts si
        let levels ← levelLoop rnd opts si w {}
        let (fine, s) ← assembleSeries api daily.index hourly level (levels.getLastD [])
        let out := restoreMissing ((daily.filter fun r => r.2.isNan).map Prod.fst) s
        let out := if shift ≠ 0 then out.shiftRows shift else out
        if test ∧ hourly = false ∧ level ≠ 9 ∧ level ≠ 10 ∧ level ≠ 11 then .error .unboundLocalError
        else .ok ⟨levels, fine, out⟩ : Py (CascadeOut K)) := by
      unfold disaggPrecCascade
      rw [if_neg (by omega), hw]
      simp only [bind, Except.bind]
      rw [← hsi, if_neg (by omega)]
    refine ⟨?_, ?_, ?_⟩
    · intro l hl hne
      rw [hred, hl]
      simp [checkOptions, hne, bind, Except.bind]
    · intro ho
      rw [hred, ho]
      rfl
    · intro s hs hlt
      rw [hred, hs]
      simp only [checkOptions, bind, Except.bind]
      -- the first level already asks for entry si - 1
      obtain ⟨k, rfl⟩ : ∃ k, si = k + 1 := ⟨si - 1, by omega⟩
      have : levelStats (.one s) k = .error .indexError := by
        unfold levelStats
        simp only [List.getElem?_eq_none (show s.threshold.length ≤ k by omega)]
      unfold levelLoop
      rw [this]
      rfl

/-- **C19**: the sample statistics shipped with the package do *not* satisfy the condition (their rounded weights add up to slightly less than 1), and
indeed a draw next to 1 makes the cascade fail with UnboundLocalError. -/
theorem C19_sample_data_can_fail :
    ∃ (rnd : Nat → ℚ) (d : Series (XF ℚ)), (∀ j, 0 ≤ rnd j ∧ rnd j < 1) ∧ (∀ r ∈ d, ∃ x, 0 ≤ x ∧ r.2 = .fin x) ∧ 2 ≤ d.length ∧
      disaggPrecCascade .modern rnd d (.one (CascStats.fillSample .init)) = .error .unboundLocalError := by
  refine ⟨fun _ => 1 - 1 / 10 ^ 17, dailyS 0 2 (fun _ => .fin 100), fun _ => by norm_num, ?_, by decide, ?_⟩
  · intro r hr
    obtain ⟨i, _, rfl⟩ := List.mem_map.1 hr
    exact ⟨100, by norm_num, rfl⟩
  · decide +kernel

/-- **C20.** 5-minute output: whenever the call returns, the values of every non-missing day add up to its precipitation and lie between 0 and it;
missing days are missing; for levels 9, 10, 11 every day has exactly its 288 five-minute values. -/
theorem C20_cascade_5min (api : PandasApi) (rnd : Nat → K) (opts : CascOptions K) (level : Nat) (test : Bool)
    (d0 : Int) (n : Nat) (v : Nat → XF K) (r : CascadeOut K)
    (h : disaggPrecCascade api rnd (dailyS d0 n v) opts false level 0 test = .ok r) :
    (9 ≤ level → r.series.index = (List.range (288 * n)).map fun k : Nat => at00 d0 + k * (5 * MINUTE)) ∧
    ∀ i < n,
      (9 ≤ level → (dayCells r.series (d0 + i)).length = 288) ∧
      (∀ x, v i = .fin x → 0 ≤ x → TotalIs (dayCells r.series (d0 + i)) x ∧
        ∀ y, XF.fin y ∈ dayCells r.series (d0 + i) → 0 ≤ y ∧ y ≤ x) ∧
      (v i = .nan → AllNan (dayCells r.series (d0 + i))) := by
  obtain ⟨hn, h1, h11, hc, w, hw, hw0, hs, hsum⟩ := cascade_5min_eq h
  rw [hs]
  constructor
  · intro h9
    rw [show at00 d0 = d0 * DAY from rfl, ← resample_grid_index (by omega : 0 < n) h9 h11 w]
    simp [restoreMissing, Series.index, Function.comp_def]
  · intro i hi
    rw [dayCells_restoreMissing, missing_contains d0 n v hi]
    refine ⟨?_, ?_, ?_⟩
    · intro h9
      rw [List.length_map, resample_grid_day_length h9 h11 w hi]
    · intro x hx h0
      have hT : (dayCells (resample5min (gridS d0 n level w)) (d0 + i)).sum = x := by
        rw [resample5min_day_sum, hsum i hi x hx, max_eq_left h0]
      have hnn : ∀ y ∈ dayCells (resample5min (gridS d0 n level w)) (d0 + i), 0 ≤ y := by
        intro y hy
        obtain ⟨q, hq, rfl⟩ := List.mem_map.1 hy
        obtain ⟨_, b, hb⟩ := mem_resample5min (List.mem_filter.1 hq).1
        rw [hb]
        apply List.sum_nonneg
        intro z hz
        obtain ⟨u, hu, rfl⟩ := List.mem_map.1 hz
        have hu := (List.mem_filter.1 hu).1
        unfold gridS at hu
        obtain ⟨k, hk, rfl⟩ := List.mem_map.1 hu
        have hk := List.mem_range.1 hk
        apply hw0
        have : k < w.length := by rw [hw, mul_comm]; exact hk
        simp only [List.getD_eq_getElem?_getD, List.getElem?_eq_getElem this]
        exact List.getElem_mem _
      simp only [hx, XF.isNan_fin, Bool.false_eq_true, if_false]
      refine ⟨⟨_, rfl, hT⟩, ?_⟩
      intro y hy
      obtain ⟨z, hz, hzy⟩ := List.mem_map.1 hy
      injection hzy with hzy
      subst hzy
      refine ⟨hnn z hz, ?_⟩
      rw [← hT]
      exact List.single_le_sum hnn z hz
    · intro hx c hcm
      obtain ⟨z, _, rfl⟩ := List.mem_map.1 hcm
      simp [hx]

/-- **C31**, list of statistics.  `opts = [s₀, …]`; level `l+1` is the array `r.levels[l]`, its parent is `r.levels[l-1]` (for `l = 0` the daily
values).  If entry `j` of the list always moves a box's rain to its second half (`second j = true`: P(0/1) = 1, P(1/0) = 0) or always to
its first half (`second j = false`: P(0/1) = 0, P(1/0) = 1), then it is entry `len - (l+1)` that decides the halving of level
`l+1`, at every level. -/
theorem C31_level_uses_own_entry (api : PandasApi) (rnd : Nat → K) (hr : ∀ j, 0 < rnd j ∧ rnd j ≤ 1) (l : List (CascStats K))
    (second : Nat → Bool)
    (hl : ∀ (j : Nat) (s : CascStats K), l[j]? = some s → ∀ b t,
      s.p01 b t = .fin (if second j then 1 else 0) ∧ s.p10 b t = .fin (if second j then 0 else 1))
    (hourly : Bool) (level : Nat) (shift : Int) (test : Bool)
    (d0 : Int) (n : Nat) (v : Nat → K) (hv : ∀ i < n, 0 ≤ v i) (r : CascadeOut K)
    (h : disaggPrecCascade api rnd (dailyS d0 n fun i => .fin (v i)) (.many l) hourly level shift test = .ok r) :
    ∀ (k : Nat) (p c : List K), ((List.range n).map v :: r.levels)[k]? = some p → r.levels[k]? = some c →
      c = p.flatMap fun x => if second (l.length - (k + 1)) then [0, x] else [x, 0] := by
  obtain ⟨_, w, levels, fine, s, hz, _, hc, hlev, ha, rfl⟩ := disagg_inv h
  rw [dailyS_values] at hz
  have hw : w = (List.range n).map v := by
    have : zeroMissing ((List.range n).map fun i => XF.fin (v i)) = .ok ((List.range n).map v) := by
      generalize List.range n = q
      induction q with
      | nil => rfl
      | cons a q ih => simp only [List.map_cons, zeroMissing, ih]; rfl
    rw [this] at hz
    injection hz with hz
    exact hz.symm
  subst hw
  have hlen : l.length = if hourly then 5 else level := by
    simp only [checkOptions] at hc
    by_contra hne
    rw [if_neg hne] at hc
    cases hc
  intro k p c hp hc'
  have := levelLoop_deterministic hr (opts := .many l) (fun j _ => second j) (if hourly then 5 else level) (by
    intro j hj s mv hs x t _
    unfold levelStats at hs
    simp only at hs
    split at hs
    · rename_i s' hs'
      split at hs
      · cases hs; exact hl j s hs' _ t
      · cases hs
    · cases hs) _ {} levels (by
      intro x hx; obtain ⟨i, hi, rfl⟩ := List.mem_map.1 hx; exact hv i (List.mem_range.1 hi)) hlev k p c hp hc'
  rw [this, hlen]
  simp only [Nat.sub_sub, Nat.add_comm 1 k]

/-- **C31**, one statistics object.  If boxes above the threshold always rain in their second half and the others always in their first half, then
level `l+1` compares with threshold number `(number of levels) - (l+1)`. -/
theorem C31_level_uses_own_threshold (api : PandasApi) (rnd : Nat → K) (hr : ∀ j, 0 < rnd j ∧ rnd j ≤ 1) (s : CascStats K)
    (thr : Nat → K) (hthr : ∀ (j : Nat) (m : XF K), s.threshold[j]? = some m → m = .fin (thr j))
    (h01 : ∀ t, s.p01 1 t = .fin 1 ∧ s.p10 1 t = .fin 0) (h10 : ∀ t, s.p01 0 t = .fin 0 ∧ s.p10 0 t = .fin 1)
    (hourly : Bool) (level : Nat) (shift : Int) (test : Bool)
    (d0 : Int) (n : Nat) (v : Nat → K) (hv : ∀ i < n, 0 ≤ v i) (r : CascadeOut K)
    (h : disaggPrecCascade api rnd (dailyS d0 n fun i => .fin (v i)) (.one s) hourly level shift test = .ok r) :
    ∀ (k : Nat) (p c : List K), ((List.range n).map v :: r.levels)[k]? = some p → r.levels[k]? = some c →
      c = p.flatMap fun x => if thr ((if hourly then 5 else level) - (k + 1)) < x then [0, x] else [x, 0] := by
  obtain ⟨_, w, levels, fine, s', hz, _, hc, hlev, ha, rfl⟩ := disagg_inv h
  rw [dailyS_values] at hz
  have hw : w = (List.range n).map v := by
    have : zeroMissing ((List.range n).map fun i => XF.fin (v i)) = .ok ((List.range n).map v) := by
      generalize List.range n = q
      induction q with
      | nil => rfl
      | cons a q ih => simp only [List.map_cons, zeroMissing, ih]; rfl
    rw [this] at hz
    injection hz with hz
    exact hz.symm
  subst hw
  intro k p c hp hc'
  have := levelLoop_deterministic hr (opts := .one s) (fun j x => decide (thr j < x)) (if hourly then 5 else level) (by
    intro j hj s' mv hs x t _
    unfold levelStats at hs
    simp only at hs
    split at hs
    · rename_i m hm
      cases hs
      have := hthr j _ hm
      subst this
      by_cases hx : thr j < x
      · simp [hx, h01]
      · simp [hx, h10]
    · cases hs) _ {} levels (by
      intro x hx; obtain ⟨i, hi, rfl⟩ := List.mem_map.1 hx; exact hv i (List.mem_range.1 hi)) hlev k p c hp hc'
  rw [this]
  simp only [Nat.sub_sub, Nat.add_comm 1 k, decide_eq_true_eq]

/-- **C31**, locality: the first `L` levels depend on the last `L` list entries only (probabilities, weights and thresholds alike). -/
theorem C31_levels_local (api : PandasApi) (rnd : Nat → K) (l l' : List (CascStats K)) (hourly : Bool) (level : Nat) (shift : Int)
    (test : Bool) (daily : Series (XF K)) (r r' : CascadeOut K)
    (h : disaggPrecCascade api rnd daily (.many l) hourly level shift test = .ok r)
    (h' : disaggPrecCascade api rnd daily (.many l') hourly level shift test = .ok r')
    (L : Nat) (hL : l.drop (l.length - L) = l'.drop (l'.length - L)) :
    r.levels.take L = r'.levels.take L := by
  obtain ⟨_, w, levels, fine, s, hz, _, hc, hlev, _, rfl⟩ := disagg_inv h
  obtain ⟨_, w', levels', fine', s', hz', _, hc', hlev', _, rfl⟩ := disagg_inv h'
  rw [hz] at hz'
  cases hz'
  generalize hsi : (if hourly = true then 5 else level) = si at *
  have e1 : l.length = si := by
    simp only [checkOptions] at hc
    by_contra hne
    rw [if_neg hne] at hc
    cases hc
  have e2 : l'.length = si := by
    simp only [checkOptions] at hc'
    by_contra hne
    rw [if_neg hne] at hc'
    cases hc'
  have hget : ∀ j : Nat, si - L ≤ j → l[j]? = l'[j]? := by
    intro j hj
    have := congrArg (fun q => q[j - (si - L)]?) hL
    simp only [List.getElem?_drop, e1, e2] at this
    rwa [show si - L + (j - (si - L)) = j by omega] at this
  rcases Nat.le_total L si with hle | hle
  · refine levelLoop_local si L hle ?_ w {} levels levels' hlev hlev'
    intro j hj _
    unfold levelStats
    simp only [hget j hj]
  · have : l = l' := by
      apply List.ext_getElem?
      intro j
      exact hget j (by omega)
    subst this
    rw [hlev] at hlev'
    cases hlev'
    rfl

/-! ### the hypotheses can be met -/

/-- statistics with exact histograms (all rain in class 4), used in the examples -/
def exampleStats : CascStats ℚ where
  p01 := fun _ _ => .fin (1 / 4)
  p10 := fun _ _ => .fin (1 / 4)
  pxx := fun _ _ => .fin (1 / 2)
  wxx := fun k _ _ => .fin (if k = 3 then 1 else 0)
  threshold := [.fin 1, .fin 2, .fin 3, .fin 4, .fin 5]
  percentile := 50

theorem exampleStats_usable : UsableOptions 5 (.one exampleStats) := by
  refine ⟨fun b t => ⟨fun k => if k = 3 then 1 else 0, fun k => rfl, ?_⟩, by decide⟩
  simp

/-- C16, C17, C18, C21, C22 and C19 apply to this three-day run (wet, missing, dry) -/
example : ∃ r, disaggPrecCascade .modern (fun _ => (3 / 4 : ℚ)) (dailyS 100 3 fun i => if i = 0 then .fin 12 else if i = 1 then .nan else .fin 0)
    (.one exampleStats) = .ok r := by
  refine C19_cascade_total .modern _ (fun _ => by norm_num) _ exampleStats_usable 100 3 (by omega) _ ?_ 9 0 false
  intro i _
  split
  · exact .inr ⟨12, by norm_num, rfl⟩
  · split
    · exact .inl rfl
    · exact .inr ⟨0, le_refl _, rfl⟩

/-- five objects alternating between first and second half, as in C31 -/
def exampleList : List (CascStats ℚ) := (List.range 5).map fun j =>
  { exampleStats with p01 := fun _ _ => .fin (if j % 2 = 0 then 1 else 0), p10 := fun _ _ => .fin (if j % 2 = 0 then 0 else 1) }

theorem exampleList_usable : UsableOptions 5 (.many exampleList) := by
  refine ⟨rfl, ?_⟩
  intro s hs
  obtain ⟨j, _, rfl⟩ := List.mem_map.1 hs
  exact ⟨exampleStats_usable.1, by simp [exampleStats]⟩

example : ∃ r, disaggPrecCascade .modern (fun _ => (3 / 4 : ℚ)) (dailyS 100 2 fun i => .fin ((i : ℚ) + 1)) (.many exampleList) = .ok r :=
  C19_cascade_total .modern _ (fun _ => by norm_num) _ exampleList_usable 100 2 (by omega) _
    (fun i _ => .inr ⟨(i : ℚ) + 1, by positivity, rfl⟩) 9 0 false

/-- a 5-minute run (C20) -/
example : ∃ r, disaggPrecCascade .modern (fun _ => (3 / 4 : ℚ)) (dailyS 100 2 fun i => .fin ((i : ℚ) + 1))
    (.one { exampleStats with threshold := List.replicate 9 (.fin 1) }) false 9 = .ok r :=
  C19_cascade_total_5min .modern _ (fun _ => by norm_num) (.one { exampleStats with threshold := List.replicate 9 (.fin 1) }) 9 (by omega)
    (by omega) ⟨exampleStats_usable.1, by decide⟩ 100 2 (by omega) _
    (fun i _ => .inr ⟨(i : ℚ) + 1, by positivity, rfl⟩) 0

end Melodist
