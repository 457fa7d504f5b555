import Verif.Lemmas.CascadeLaw
import Verif.Props.Branching

/-!
# C96: the probabilities of the outcomes of the cascade
-/

set_option linter.unusedSectionVars false

namespace Melodist
open Spec MeasureTheory ProbabilityTheory

/-- `U 0, U 1, …` are independent random numbers, uniformly distributed on [0, 1] -/
structure UniformDraws {Ω : Type} [MeasurableSpace Ω] (P : Measure Ω) (U : Nat → Ω → ℝ) : Prop where
  measurable : ∀ k, Measurable (U k)
  uniform : ∀ k, P.map (U k) = volume.restrict (Set.Icc 0 1)
  indep : iIndepFun U P

/-- the probabilities `q l` and thresholds `thr l` are those of the statistics for level `l` of `L` levels -/
def StatsAre (opts : CascOptions ℝ) (L : Nat) (q : Nat → Fin 2 → Fin 4 → SplitLaw) (thr : Nat → XF ℝ) : Prop :=
  (∀ os, opts = .many os → os.length = L) ∧
  ∀ l < L, ∃ s, statsOfLevel opts L l s (thr l) ∧
    ∀ b t, s.p01 b t = .fin (q l b t).p01 ∧ s.p10 b t = .fin (q l b t).p10 ∧ ∀ k, s.wxx k b t = .fin ((q l b t).w k)

theorem statsOfLevel_levelStats {opts : CascOptions ℝ} {L l : Nat} {s : CascStats ℝ} {thr : XF ℝ} (h : statsOfLevel opts L l s thr) :
    levelStats opts (L - (l + 1)) = .ok (s, thr) := by
  unfold statsOfLevel at h
  unfold levelStats
  cases opts with
  | one o => obtain ⟨rfl, h⟩ := h; simp only [h]
  | many os => obtain ⟨h, h'⟩ := h; simp only [h, h']
  | other => exact h.elim

theorem dailyAmounts_zeroMissing {n : Nat} {v : Nat → XF ℝ} (hv : ∀ i < n, v i = .nan ∨ ∃ x, 0 ≤ x ∧ v i = .fin x) :
    zeroMissing ((List.range n).map v) = .ok (dailyAmounts n v) := by
  unfold dailyAmounts
  have : ∀ l : List Nat, (∀ i ∈ l, i < n) → zeroMissing (l.map v) = .ok (l.map fun i => match v i with | .fin x => x | _ => 0) := by
    intro l
    induction l with
    | nil => intro _; rfl
    | cons i l ih =>
      intro h
      have ih := ih fun j hj => h j (List.mem_cons_of_mem _ hj)
      rcases hv i (h i (by simp)) with e | ⟨x, _, e⟩
      · simp only [List.map_cons, e, zeroMissing, ih]; rfl
      · simp only [List.map_cons, e, zeroMissing, ih]; rfl
  exact this _ fun i hi => List.mem_range.1 hi

/-- the levels of a run are those of the level loop -/
theorem run_levels (api : PandasApi) (rnd : Nat → ℝ) (opts : CascOptions ℝ) (hourly : Bool) (level : Nat) (shift : Int) (test : Bool)
    (ht : hourly = true ∨ test = false ∨ 9 ≤ level) (d0 : Int) (n : Nat) (hn : 2 ≤ n) (v : Nat → XF ℝ)
    (hv : ∀ i < n, v i = .nan ∨ ∃ x, 0 ≤ x ∧ v i = .fin x) (h1 : 1 ≤ if hourly then 5 else level) (h11 : (if hourly then 5 else level) ≤ 11)
    (hc : checkOptions opts (if hourly then 5 else level) = .ok ()) (ls : List (List ℝ)) :
    (∃ r, disaggPrecCascade api rnd (dailyS d0 n v) opts hourly level shift test = .ok r ∧ r.levels = ls) ↔
      levelLoop rnd opts (if hourly then 5 else level) (dailyAmounts n v) {} = .ok ls := by
  have hz := dailyAmounts_zeroMissing hv
  have hlen : (dailyAmounts n v).length = n := by simp [dailyAmounts]
  constructor
  · rintro ⟨r, h, rfl⟩
    obtain ⟨_, w, levels, fine, s', e1, _, _, e2, _, rfl⟩ := disagg_inv h
    rw [dailyS_values, hz] at e1
    injection e1 with e1
    subst e1
    exact e2
  · intro hls
    unfold disaggPrecCascade
    rw [if_neg (by simp; omega), dailyS_values, hz]
    cases hourly with
    | true =>
      simp only [if_true] at hls hc h1 h11
      have hb := levelLoop_last hls
      have hq := hb.trans (quarterHours_split _ hb.nonneg)
      have hl : (hourlyFromQuarter (quarterHours (ls.getLastD []))).length = 24 * n := by
        rw [hourlyFromQuarter_eq, (BlockSplit.agg (m := 24) hq).length, hlen]
      have hm := make_hourly (d0 := d0) (n := n) _ hl (fun _ _ => 0)
      simp only [if_true, bind, Except.bind]
      rw [if_neg (by omega), hc, hls]
      simp only [assembleSeries, if_true, bind, Except.bind]
      rw [hourlyIndex_daily api d0 (by omega : 0 < n) v false (fun _ _ => XF.nan),
        show Series.index (hourlyS d0 n fun _ _ => (XF.nan : XF ℝ)) = Series.index (hourlyS d0 n fun _ _ => (0 : ℝ)) by
          rw [hourlyS_index, hourlyS_index]]
      simp only
      rw [hm]
      simp
    | false =>
      simp only [Bool.false_eq_true, if_false] at hls hc h1 h11
      have hb : (ls.getLastD []).length = n * 2 ^ level := by
        obtain ⟨l, rfl⟩ : ∃ l, level = l + 1 := ⟨level - 1, by omega⟩
        have hb := levelLoop_last hls
        rw [hb.length, hlen, mul_comm]
      simp only [Bool.false_eq_true, if_false, bind, Except.bind]
      rw [if_neg (by omega), hc, hls]
      simp only [assembleSeries, Bool.false_eq_true, if_false, bind, Except.bind]
      rw [subLevelIndex_daily api d0 (by omega) v h11]
      simp only
      rw [make_grid hb]
      simp only
      rw [if_neg]
      · exact ⟨_, rfl, rfl⟩
      · rintro ⟨c1, _, c2⟩
        rcases ht with h | h | h
        · cases h
        · rw [h] at c1; cases c1
        · omega

/-- **C96.**  With independent random numbers, uniformly distributed on [0, 1], the probability that the cascade run computes the levels `ls` is
the product over all levels and all boxes of the branching probabilities: `levelsProb` with the entries of the level's statistics for the
intensity class and position type of the box.  (Entries must be numbers that are not negative; if P(0/1) + P(1/0) or cumulative weights exceed
1 they count as 1, and if the weights add up to less than 1 the remaining probability goes to the weight used last.) -/
theorem C96_law {Ω : Type} [MeasurableSpace Ω] (P : Measure Ω) (U : Nat → Ω → ℝ) (hU : UniformDraws P U)
    (api : PandasApi) (opts : CascOptions ℝ) (hourly : Bool) (level : Nat) (shift : Int) (test : Bool)
    (ht : hourly = true ∨ test = false ∨ 9 ≤ level) (d0 : Int) (n : Nat) (hn : 2 ≤ n) (v : Nat → XF ℝ)
    (hv : ∀ i < n, v i = .nan ∨ ∃ x, 0 ≤ x ∧ v i = .fin x) (L : Nat) (hL : L = if hourly then 5 else level) (h1 : 1 ≤ L) (h11 : L ≤ 11)
    (q : Nat → Fin 2 → Fin 4 → SplitLaw) (hq : ∀ l b t, (q l b t).NonNeg) (thr : Nat → XF ℝ) (hs : StatsAre opts L q thr)
    (ls : List (List ℝ)) (hls : ls.length = L) :
    P.real {ω | ∃ r, disaggPrecCascade api (fun k => U k ω) (dailyS d0 n v) opts hourly level shift test = .ok r ∧ r.levels = ls} =
      levelsProb q thr 0 none (dailyAmounts n v) ls := by
  have hc : checkOptions opts L = .ok () := by
    unfold checkOptions
    cases opts with
    | one o => rfl
    | many os => simp only; rw [if_pos (hs.1 os rfl)]
    | other =>
      obtain ⟨s, h, _⟩ := hs.2 0 h1
      exact h.elim
  have hnn : ∀ x ∈ dailyAmounts n v, 0 ≤ x := by
    intro x hx
    obtain ⟨i, hi, rfl⟩ := List.mem_map.1 hx
    rcases hv i (List.mem_range.1 hi) with e | ⟨x, h, e⟩
    · rw [e]
    · rw [e]; exact h
  have hset : {ω | ∃ r, disaggPrecCascade api (fun k => U k ω) (dailyS d0 n v) opts hourly level shift test = .ok r ∧ r.levels = ls} =
      {ω | Holds (fun k => U k ω) 0 (levelConds q thr 0 none (dailyAmounts n v) ls)} := by
    ext ω
    rw [hL] at h1 h11 hc
    rw [Set.mem_setOf_eq, Set.mem_setOf_eq, run_levels api _ opts hourly level shift test ht d0 n hn v hv h1 h11 hc, ← hL, ← hls]
    refine levelLoop_law hq thr ls 0 _ {} hnn (by simp [dailyAmounts]; exact hn) (.inl rfl) ?_
    intro j hj
    obtain ⟨s, e1, e2⟩ := hs.2 j (by omega)
    rw [Nat.zero_add, hls]
    exact ⟨s, statsOfLevel_levelStats e1, e2⟩
  rw [hset, holds_prob hU.indep hU.measurable hU.uniform _ (levelConds_measurable q thr ls 0 none _) 0, levelConds_prob hq thr]

theorem splitProb_proper {q : SplitLaw} (hq : q.Proper) (last : Option ℝ) (y a b : ℝ) : splitProb q last y a b = splitProbProper q y a b := by
  obtain ⟨⟨n1, n2, n3⟩, p1, p2⟩ := hq
  have e1 : q.second = q.p01 := by unfold SplitLaw.second; exact min_eq_right (by linarith)
  have e2 : q.first = q.p10 := by
    unfold SplitLaw.first
    rw [min_eq_right p1, min_eq_right (by linarith : q.p01 ≤ 1)]; ring
  have e3 : q.both = 1 - q.p01 - q.p10 := by unfold SplitLaw.both; rw [min_eq_right p1]; ring
  have hle : ∀ s : Finset (Fin 7), ∑ k ∈ s, q.w k ≤ 1 := fun s => by
    rw [← p2]; exact Finset.sum_le_sum_of_subset_of_nonneg (Finset.subset_univ _) fun k _ _ => n3 k
  have e4 : ∀ c, q.cls c = q.w c := by
    intro c
    unfold SplitLaw.cls
    rw [min_eq_right (hle _), min_eq_right (hle _), ← Finset.Iio_insert, Finset.sum_insert (by simp)]
    ring
  have e5 : q.noClass = 0 := by unfold SplitLaw.noClass; rw [p2]; simp
  unfold splitProb splitProbProper
  rw [e1, e2, e3, e5]
  simp only [e4, ite_self, add_zero]

theorem levelsProb_proper {q : Nat → Fin 2 → Fin 4 → SplitLaw} (hq : ∀ l b t, (q l b t).Proper) (thr : Nat → XF ℝ) :
    ∀ (ls : List (List ℝ)) (l : Nat) (last : Option ℝ) (p : List ℝ),
      (∀ i < ls.length, (ls.getD i []).length = 2 * ((p :: ls).getD i []).length) →
      levelsProb q thr l last p ls = ∏ i ∈ Finset.range ls.length, ∏ j ∈ Finset.range ((p :: ls).getD i []).length,
        splitProbProper (q (l + i) (if XF.lt (thr (l + i)) (.fin (((p :: ls).getD i []).getD j 0)) then 1 else 0) (posType ((p :: ls).getD i []) j))
          (((p :: ls).getD i []).getD j 0) ((ls.getD i []).getD (2 * j) 0) ((ls.getD i []).getD (2 * j + 1) 0)
  | [], _, _, _, _ => by simp [levelsProb]
  | c :: ls, l, last, p, h => by
    have h0 := h 0 (by simp)
    simp only [List.getD_cons_zero] at h0
    rw [levelsProb, levelsProb_proper hq thr ls (l + 1) _ c (by
      intro i hi
      have := h (i + 1) (by simp; omega)
      simpa using this), List.length_cons, Finset.prod_range_succ', mul_comm]
    congr 1
    · apply Finset.prod_congr rfl
      intro i _
      rw [show l + (i + 1) = l + 1 + i by omega]
      simp
    · unfold levelProb
      rw [if_pos h0]
      simp only [List.getD_cons_zero, Nat.add_zero]
      apply Finset.prod_congr rfl
      intro j _
      exact splitProb_proper (hq _ _ _) _ _ _ _

/-- **C96**, statistics with proper probabilities (P(0/1) + P(1/0) at most 1, weights adding up to 1): the probability of the levels `ls` is the product
over the levels `i` and boxes `j` of P(0/1), P(1/0), or (1 - P(0/1) - P(1/0)) times the weight of the class. -/
theorem C96_proper {Ω : Type} [MeasurableSpace Ω] (P : Measure Ω) (U : Nat → Ω → ℝ) (hU : UniformDraws P U)
    (api : PandasApi) (opts : CascOptions ℝ) (hourly : Bool) (level : Nat) (shift : Int) (test : Bool)
    (ht : hourly = true ∨ test = false ∨ 9 ≤ level) (d0 : Int) (n : Nat) (hn : 2 ≤ n) (v : Nat → XF ℝ)
    (hv : ∀ i < n, v i = .nan ∨ ∃ x, 0 ≤ x ∧ v i = .fin x) (L : Nat) (hL : L = if hourly then 5 else level) (h1 : 1 ≤ L) (h11 : L ≤ 11)
    (q : Nat → Fin 2 → Fin 4 → SplitLaw) (hq : ∀ l b t, (q l b t).Proper) (thr : Nat → XF ℝ) (hs : StatsAre opts L q thr)
    (ls : List (List ℝ)) (hls : ls.length = L)
    (hlen : ∀ i < L, (ls.getD i []).length = 2 * ((dailyAmounts n v :: ls).getD i []).length) :
    P.real {ω | ∃ r, disaggPrecCascade api (fun k => U k ω) (dailyS d0 n v) opts hourly level shift test = .ok r ∧ r.levels = ls} =
      ∏ i ∈ Finset.range L, ∏ j ∈ Finset.range ((dailyAmounts n v :: ls).getD i []).length,
        let p := (dailyAmounts n v :: ls).getD i []
        let c := ls.getD i []
        splitProbProper (q i (if XF.lt (thr i) (.fin (p.getD j 0)) then 1 else 0) (posType p j)) (p.getD j 0) (c.getD (2 * j) 0) (c.getD (2 * j + 1) 0) := by
  rw [C96_law P U hU api opts hourly level shift test ht d0 n hn v hv L hL h1 h11 q (fun l b t => (hq l b t).1) thr hs ls hls,
    levelsProb_proper hq thr ls 0 none _ (by rwa [hls]), hls]
  simp only [Nat.zero_add]

/-- Such random numbers exist. -/
theorem uniformDraws_exist : UniformDraws (Measure.infinitePi fun _ : Nat => unit) (fun k ω => ω k) where
  measurable := fun k => measurable_pi_apply k
  uniform := fun k => Measure.infinitePi_map_eval (fun _ : Nat => unit) k
  indep := iIndepFun_infinitePi (P := fun _ : Nat => unit) (X := fun _ x => x) fun _ => measurable_id

/-- statistics with P(0/1) = 1/4, P(1/0) = 1/2 and equal weights for every class and type -/
noncomputable def evenStats : CascStats ℝ where
  p01 := fun _ _ => .fin (1 / 4)
  p10 := fun _ _ => .fin (1 / 2)
  pxx := fun _ _ => .fin (1 / 4)
  wxx := fun _ _ _ => .fin (1 / 7)
  threshold := [.fin 1, .fin 1, .fin 1, .fin 1, .fin 1]
  percentile := 50

/-- C96 at work: one level, 4 mm on the first of two days; all of it falls in the second half of the first day with probability 1/4. -/
example : (Measure.infinitePi fun _ : Nat => unit).real {ω | ∃ r, disaggPrecCascade .modern (fun k => ω k)
    (dailyS 0 2 fun i => if i = 0 then .fin 4 else .fin 0) (.one evenStats) false 1 0 false = .ok r ∧ r.levels = [[0, 4, 0, 0]]} = 1 / 4 := by
  rw [C96_proper (Measure.infinitePi fun _ : Nat => unit) (fun k ω => ω k) uniformDraws_exist .modern (.one evenStats) false 1 0 false (.inr (.inl rfl)) 0 2
    (by norm_num) (fun i => if i = 0 then .fin 4 else .fin 0) (by intro i _; by_cases h : i = 0 <;> simp [h]) 1 rfl (by norm_num) (by norm_num)
    (fun _ _ _ => ⟨1 / 4, 1 / 2, fun _ => 1 / 7⟩) (by
      intro l b t
      refine ⟨⟨by norm_num, by norm_num, fun _ => by norm_num⟩, by norm_num, by norm_num⟩)
    (fun _ => .fin 1) ⟨by simp, by
      intro l hl
      obtain rfl : l = 0 := by omega
      exact ⟨evenStats, ⟨rfl, rfl⟩, fun b t => ⟨rfl, rfl, fun k => rfl⟩⟩⟩ [[0, 4, 0, 0]] rfl (by
      intro i hi
      obtain rfl : i = 0 := by omega
      simp [dailyAmounts])]
  simp [Finset.prod_range_succ, dailyAmounts, List.range_succ, splitProbProper]

end Melodist
