import Verif.Lemmas.CascadeMean

/-!
# C136: expected amounts of the cascade
-/

set_option linter.unusedSectionVars false

namespace Melodist
open Spec MeasureTheory ProbabilityTheory

noncomputable section

theorem centre0 : centre 0 = 1429/10000 - 1 / 14 := by
  show classLimit 1 - 1 / 14 = _
  simp [classLimit]; try norm_num
theorem centre1 : centre 1 = 2857/10000 - 1 / 14 := by
  show classLimit 2 - 1 / 14 = _
  simp [classLimit]; try norm_num
theorem centre2 : centre 2 = 4286/10000 - 1 / 14 := by
  show classLimit 3 - 1 / 14 = _
  simp [classLimit]; try norm_num
theorem centre3 : centre 3 = 5714/10000 - 1 / 14 := by
  show classLimit 4 - 1 / 14 = _
  simp [classLimit]; try norm_num
theorem centre4 : centre 4 = 7143/10000 - 1 / 14 := by
  show classLimit 5 - 1 / 14 = _
  simp [classLimit]; try norm_num
theorem centre5 : centre 5 = 8571/10000 - 1 / 14 := by
  show classLimit 6 - 1 / 14 = _
  simp [classLimit]; try norm_num
theorem centre6 : centre 6 = 1 - 1 / 14 := by
  show classLimit 7 - 1 / 14 = _
  simp [classLimit]; try norm_num

section
variable {Ω : Type} [MeasurableSpace Ω] {P : Measure Ω} {U : Nat → Ω → ℝ}

theorem uniformDraws_prob (hU : UniformDraws P U) : IsProbabilityMeasure P := by
  constructor
  have h := hU.uniform 0
  have h2 : P.map (U 0) Set.univ = P Set.univ := by rw [Measure.map_apply (hU.measurable 0) MeasurableSet.univ, Set.preimage_univ]
  rw [← h2, h]
  simp

/-- expectation over an event-valued function with finitely many values -/
theorem expect_finite {V : Type} [IsProbabilityMeasure P] (A : V → Set Ω) (O : Finset V) (hm : ∀ a ∈ O, MeasurableSet (A a))
    (hd : ∀ a ∈ O, ∀ b ∈ O, a ≠ b → Disjoint (A a) (A b)) (h1 : ∑ a ∈ O, P.real (A a) = 1) :
    (∀ᵐ ω ∂P, ∃ a ∈ O, ω ∈ A a) ∧
    ∀ (X : Ω → ℝ) (f : V → ℝ), (∀ a ∈ O, ∀ ω ∈ A a, X ω = f a) → Integrable X P ∧ ∫ ω, X ω ∂P = ∑ a ∈ O, P.real (A a) * f a := by
  classical
  have hpd : Set.PairwiseDisjoint (↑O) A := fun a ha b hb hab => hd a ha b hb hab
  have hU : P.real (⋃ a ∈ O, A a) = 1 := by rw [measureReal_biUnion_finset hpd hm, h1]
  have hmU : MeasurableSet (⋃ a ∈ O, A a) := Finset.measurableSet_biUnion O hm
  have hae : ∀ᵐ ω ∂P, ∃ a ∈ O, ω ∈ A a := by
    have : P (⋃ a ∈ O, A a) = 1 := by
      rw [measureReal_def] at hU
      rw [← ENNReal.ofReal_toReal (measure_ne_top P _), hU, ENNReal.ofReal_one]
    have := (prob_compl_eq_zero_iff hmU).2 this
    filter_upwards [compl_mem_ae_iff.2 this] with ω hω
    simpa using hω
  refine ⟨hae, fun X f hX => ?_⟩
  have hXe : X =ᵐ[P] fun ω => ∑ a ∈ O, (A a).indicator (fun _ => f a) ω := by
    filter_upwards [hae] with ω ⟨a, ha, hω⟩
    rw [hX a ha ω hω, Finset.sum_eq_single a]
    · rw [Set.indicator_of_mem hω]
    · intro b hb hba
      rw [Set.indicator_of_notMem]
      intro hb'
      exact Set.disjoint_left.1 (hd b hb a ha hba) hb' hω
    · intro h; exact absurd ha h
  have hint : ∀ a ∈ O, Integrable (fun ω => (A a).indicator (fun _ => f a) ω) P := fun a ha => (integrable_const (f a)).indicator (hm a ha)
  constructor
  · exact (integrable_finset_sum O hint).congr hXe.symm
  · rw [integral_congr_ae hXe, integral_finset_sum O hint]
    refine Finset.sum_congr rfl fun a ha => ?_
    rw [integral_indicator_const _ (hm a ha), smul_eq_mul]

variable {api : PandasApi} {opts : CascOptions ℝ} {hourly : Bool} {level : Nat} {shift : Int} {test : Bool}
  {d0 : Int} {n : Nat} {v : Nat → XF ℝ} {L : Nat} {q : Nat → Fin 2 → Fin 4 → SplitLaw} {thr : Nat → XF ℝ}

theorem dailyAmounts_nonneg (hv : ∀ i < n, v i = .nan ∨ ∃ x, 0 ≤ x ∧ v i = .fin x) : ∀ x ∈ dailyAmounts n v, 0 ≤ x := by
  intro x hx
  obtain ⟨i, hi, rfl⟩ := List.mem_map.1 hx
  rcases hv i (List.mem_range.1 hi) with e | ⟨x, h, e⟩
  · rw [e]
  · rw [e]; exact h

theorem run_measurable (hU : UniformDraws P U)
    (ht : hourly = true ∨ test = false ∨ 9 ≤ level) (hn : 2 ≤ n)
    (hv : ∀ i < n, v i = .nan ∨ ∃ x, 0 ≤ x ∧ v i = .fin x) (hL : L = if hourly then 5 else level) (h1 : 1 ≤ L) (h11 : L ≤ 11)
    (hq : ∀ l b t, (q l b t).NonNeg) (hs : StatsAre opts L q thr) (ls : List (List ℝ)) (hls : ls.length = L) :
    MeasurableSet {ω | ∃ r, disaggPrecCascade api (fun k => U k ω) (dailyS d0 n v) opts hourly level shift test = .ok r ∧ r.levels = ls} := by
  have hc : checkOptions opts L = .ok () := by
    unfold checkOptions
    cases opts with
    | one o => rfl
    | many os => simp only; rw [if_pos (hs.1 os rfl)]
    | other =>
      obtain ⟨s, h, _⟩ := hs.2 0 h1
      exact h.elim
  have hset : {ω | ∃ r, disaggPrecCascade api (fun k => U k ω) (dailyS d0 n v) opts hourly level shift test = .ok r ∧ r.levels = ls} =
      {ω | Holds (fun k => U k ω) 0 (levelConds q thr 0 none (dailyAmounts n v) ls)} := by
    ext ω
    rw [hL] at h1 h11 hc
    rw [Set.mem_setOf_eq, Set.mem_setOf_eq, run_levels api _ opts hourly level shift test ht d0 n hn v hv h1 h11 hc, ← hL, ← hls]
    refine levelLoop_law hq thr ls 0 _ {} (dailyAmounts_nonneg hv) (by simp [dailyAmounts]; exact hn) (.inl rfl) ?_
    intro j hj
    obtain ⟨s, e1, e2⟩ := hs.2 j (by omega)
    rw [Nat.zero_add, hls]
    exact ⟨s, statsOfLevel_levelStats e1, e2⟩
  have hm := levelConds_measurable q thr ls 0 none (dailyAmounts n v)
  rw [hset]
  generalize levelConds q thr 0 none (dailyAmounts n v) ls = M at *
  have hm' : ∀ i, MeasurableSet (M.getD i Set.univ) := by
    intro i
    by_cases h : i < M.length
    · rw [List.getD_eq_getElem _ _ h]; exact hm _ (List.getElem_mem h)
    · rw [List.getD_eq_default _ _ (by omega)]; exact MeasurableSet.univ
  have e : {ω | Holds (fun i => U i ω) 0 M} = ⋂ i ∈ Finset.range M.length, (U (0 + i)) ⁻¹' (M.getD i Set.univ) := by
    ext ω
    simp only [Set.mem_setOf_eq, holds_iff, Set.mem_iInter, Set.mem_preimage]
  rw [e]
  exact Finset.measurableSet_biInter _ fun i _ => hU.measurable _ (hm' i)

/-- expectation of a function of the levels -/
theorem cascade_expect (hU : UniformDraws P U)
    (ht : hourly = true ∨ test = false ∨ 9 ≤ level) (hn : 2 ≤ n)
    (hv : ∀ i < n, v i = .nan ∨ ∃ x, 0 ≤ x ∧ v i = .fin x) (hL : L = if hourly then 5 else level) (h1 : 1 ≤ L) (h11 : L ≤ 11)
    (hq : ∀ l b t, (q l b t).Proper) (hs : StatsAre opts L q thr) :
    (∀ᵐ ω ∂P, ∃ r, disaggPrecCascade api (fun k => U k ω) (dailyS d0 n v) opts hourly level shift test = .ok r) ∧
    ∀ (X : Ω → ℝ) (f : List (List ℝ) → ℝ),
      (∀ ω r, disaggPrecCascade api (fun k => U k ω) (dailyS d0 n v) opts hourly level shift test = .ok r → X ω = f r.levels) →
      Integrable X P ∧ ∫ ω, X ω ∂P = ∑ ls ∈ outcomes L (dailyAmounts n v), levelsProb q thr 0 none (dailyAmounts n v) ls * f ls := by
  have := uniformDraws_prob hU
  have hprob : ∀ ls ∈ outcomes L (dailyAmounts n v),
      P.real {ω | ∃ r, disaggPrecCascade api (fun k => U k ω) (dailyS d0 n v) opts hourly level shift test = .ok r ∧ r.levels = ls} =
        levelsProb q thr 0 none (dailyAmounts n v) ls := fun ls h =>
    C96_law P U hU api opts hourly level shift test ht d0 n hn v hv L hL h1 h11 q (fun l b t => (hq l b t).1) thr hs ls (outcomes_length L _ ls h)
  obtain ⟨h2, h3⟩ := expect_finite (P := P)
    (fun ls => {ω | ∃ r, disaggPrecCascade api (fun k => U k ω) (dailyS d0 n v) opts hourly level shift test = .ok r ∧ r.levels = ls})
    (outcomes L (dailyAmounts n v))
    (fun ls h => run_measurable hU ht hn hv hL h1 h11 (fun l b t => (hq l b t).1) hs ls (outcomes_length L _ ls h))
    (by
      intro a _ b _ hab
      apply Set.disjoint_left.2
      rintro ω ⟨r, e1, rfl⟩ ⟨r', e2, rfl⟩
      rw [e1] at e2
      injection e2 with e2
      exact hab (congrArg CascadeOut.levels e2))
    (by rw [Finset.sum_congr rfl hprob]; exact levels_one hq L 0 none _)
  constructor
  · filter_upwards [h2] with ω ⟨ls, _, r, h, _⟩
    exact ⟨r, h⟩
  · intro X f hX
    obtain ⟨i1, i2⟩ := h3 X f (by rintro ls _ ω ⟨r, e, rfl⟩; exact hX ω r e)
    refine ⟨i1, i2.trans (Finset.sum_congr rfl fun ls h => by rw [hprob ls h])⟩

/-- **C136** (expected half of a box): given the levels before, the first half of a box with the amount `y` gets on average the share
P(1/0) + (1 - P(0/1) - P(1/0)) * (mean weight) of `y`, the second half the rest, with the probabilities of the level's statistics for the box's class and
type.  Stated as expectations over the event that the first `l` levels are `past`. -/
theorem C136_halves (hU : UniformDraws P U)
    (ht : hourly = true ∨ test = false ∨ 9 ≤ level) (hn : 2 ≤ n)
    (hv : ∀ i < n, v i = .nan ∨ ∃ x, 0 ≤ x ∧ v i = .fin x) (hL : L = if hourly then 5 else level) (h11 : L ≤ 11)
    (hq : ∀ l b t, (q l b t).Proper) (hs : StatsAre opts L q thr) {l : Nat} (hl : l < L) (past : List (List ℝ)) (hp : past.length = l)
    {p : List ℝ} (hpl : p = (dailyAmounts n v :: past).getD l []) {j : Nat} (hj : j < p.length) {sl : SplitLaw}
    (hsl : sl = q l (if XF.lt (thr l) (.fin (p.getD j 0)) then 1 else 0) (posType p j)) :
    open Classical in
    let run := fun ω => disaggPrecCascade api (fun k => U k ω) (dailyS d0 n v) opts hourly level shift test
    let pr := ∫ ω, (if firstLevels (run ω) l past then 1 else 0) ∂P
    (∫ ω, (if firstLevels (run ω) l past then amountIn (run ω) l (2 * j) else 0) ∂P) = sl.firstShare * p.getD j 0 * pr ∧
    (∫ ω, (if firstLevels (run ω) l past then amountIn (run ω) l (2 * j + 1) else 0) ∂P) = sl.secondShare * p.getD j 0 * pr ∧
    sl.firstShare + sl.secondShare = 1 := by
  classical
  intro run pr
  have hE := (cascade_expect (P := P) (api := api) (shift := shift) (d0 := d0) hU ht hn hv hL (by omega) h11 hq hs).2
  have hfl : ∀ ω r, disaggPrecCascade api (fun k => U k ω) (dailyS d0 n v) opts hourly level shift test = .ok r →
      (firstLevels (run ω) l past ↔ r.levels.take l = past) := by
    intro ω r h
    unfold firstLevels
    constructor
    · rintro ⟨r', e, h'⟩
      have : run ω = .ok r := h
      rw [this] at e
      injection e with e
      rw [e]; exact h'
    · intro h'; exact ⟨r, h, h'⟩
  have hpr : pr = ∑ ls ∈ outcomes L (dailyAmounts n v), (if ls.take l = past then levelsProb q thr 0 none (dailyAmounts n v) ls else 0) := by
    refine (hE _ (fun ls => if ls.take l = past then 1 else 0) ?_).2.trans (Finset.sum_congr rfl fun ls _ => by split_ifs <;> ring)
    intro ω r h
    simp only [hfl ω r h]
  have hbox : ∀ e, (∫ ω, (if firstLevels (run ω) l past then amountIn (run ω) l (2 * j + e) else 0) ∂P) =
      ∑ ls ∈ outcomes L (dailyAmounts n v), (if ls.take l = past then levelsProb q thr 0 none (dailyAmounts n v) ls * (ls.getD l []).getD (2 * j + e) 0 else 0) := by
    intro e
    refine (hE _ (fun ls => if ls.take l = past then (ls.getD l []).getD (2 * j + e) 0 else 0) ?_).2.trans (Finset.sum_congr rfl fun ls _ => by split_ifs <;> ring)
    intro ω r h
    have ha : amountIn (run ω) l (2 * j + e) = (r.levels.getD l []).getD (2 * j + e) 0 := by
      have : run ω = .ok r := h
      rw [this]; rfl
    simp only [hfl ω r h, ha]
  have hnn := dailyAmounts_nonneg hv
  subst hsl
  refine ⟨?_, ?_, firstShare_add (hq _ _ _)⟩
  · have h := levels_past (thr := thr) hq (e := 0) (sh := SplitLaw.firstShare) (fun l start p j hp hj => level_first (hq l) start hp hj) l L 0 none (dailyAmounts n v) past j
      hl hp hnn (by rw [← hpl]; exact hj)
    have := hbox 0
    rw [h, ← hpr, ← hpl, Nat.zero_add] at this
    exact this
  · have h := levels_past (thr := thr) hq (e := 1) (sh := SplitLaw.secondShare) (fun l start p j hp hj => level_second (hq l) start hp hj) l L 0 none (dailyAmounts n v) past j
      hl hp hnn (by rw [← hpl]; exact hj)
    have := hbox 1
    rw [h, ← hpr, ← hpl, Nat.zero_add] at this
    exact this

/-- **C136** (boxes): the run succeeds with probability 1; if the expected shares of the halves lie between `α` and `β`, the expected amount in a box of level
`l` lies between `α ^ (l + 1)` and `β ^ (l + 1)` times the amount of its day (with `α = β = 1/2` it is the equal part of the day). -/
theorem C136_boxes (hU : UniformDraws P U)
    (ht : hourly = true ∨ test = false ∨ 9 ≤ level) (hn : 2 ≤ n)
    (hv : ∀ i < n, v i = .nan ∨ ∃ x, 0 ≤ x ∧ v i = .fin x) (hL : L = if hourly then 5 else level) (h1 : 1 ≤ L) (h11 : L ≤ 11)
    (hq : ∀ l b t, (q l b t).Proper) (hs : StatsAre opts L q thr) {α β : ℝ} (hα : 0 ≤ α)
    (hsh : ∀ l b t, α ≤ (q l b t).firstShare ∧ (q l b t).firstShare ≤ β ∧ α ≤ (q l b t).secondShare ∧ (q l b t).secondShare ≤ β) :
    (∀ᵐ ω ∂P, ∃ r, disaggPrecCascade api (fun k => U k ω) (dailyS d0 n v) opts hourly level shift test = .ok r) ∧
    ∀ l < L, ∀ j < n * 2 ^ (l + 1), ∀ x, v (j / 2 ^ (l + 1)) = .fin x →
      Integrable (fun ω => amountIn (disaggPrecCascade api (fun k => U k ω) (dailyS d0 n v) opts hourly level shift test) l j) P ∧
      α ^ (l + 1) * x ≤ ∫ ω, amountIn (disaggPrecCascade api (fun k => U k ω) (dailyS d0 n v) opts hourly level shift test) l j ∂P ∧
      ∫ ω, amountIn (disaggPrecCascade api (fun k => U k ω) (dailyS d0 n v) opts hourly level shift test) l j ∂P ≤ β ^ (l + 1) * x := by
  obtain ⟨hae, hE⟩ := cascade_expect (P := P) (api := api) (shift := shift) (d0 := d0) hU ht hn hv hL h1 h11 hq hs
  refine ⟨hae, fun l hl j hj x hx => ?_⟩
  obtain ⟨i1, i2⟩ := hE (fun ω => amountIn (disaggPrecCascade api (fun k => U k ω) (dailyS d0 n v) opts hourly level shift test) l j)
    (fun ls => (ls.getD l []).getD j 0) (by
      intro ω r h
      simp only [h, amountIn])
  have hlen : (dailyAmounts n v).length = n := by simp [dailyAmounts]
  have hday : (dailyAmounts n v).getD (j / 2 ^ (l + 1)) 0 = x := by
    have : j / 2 ^ (l + 1) < n := by rwa [Nat.div_lt_iff_lt_mul (by positivity)]
    rw [List.getD_eq_getElem _ _ (by omega)]
    simp [dailyAmounts, hx]
  have h := levels_box (thr := thr) hq hα hsh l L 0 none (dailyAmounts n v) j hl (dailyAmounts_nonneg hv) (by rw [hlen]; exact hj)
  rw [hday, ← i2] at h
  exact ⟨i1, h⟩

theorem quarterHours_getD (v : List ℝ) (k : Nat) : (quarterHours v).getD k 0 = v.getD (k / 3) 0 / 3 := by
  induction v generalizing k with
  | nil => simp [quarterHours]
  | cons x v ih =>
    have e : quarterHours (x :: v) = x / 3 :: x / 3 :: x / 3 :: quarterHours v := rfl
    rw [e]
    match k with
    | 0 => simp
    | 1 => simp
    | 2 => simp
    | k + 3 => simp only [List.getD_cons_succ, ih, Nat.add_div_right k (by norm_num : 0 < 3)]

theorem agg4_getD (w : List ℝ) (k : Nat) (hk : 4 * k + 4 ≤ w.length) : (agg4 w).getD k 0 =
    w.getD (4 * k) 0 + w.getD (4 * k + 1) 0 + w.getD (4 * k + 2) 0 + w.getD (4 * k + 3) 0 := by
  match w with
  | [] => simp at hk
  | [_] => simp at hk
  | [_, _] => simp at hk
  | [_, _, _] => simp at hk
  | a :: b :: c :: d :: rest =>
    match k with
    | 0 => simp [agg4]
    | k + 1 =>
      have h := agg4_getD rest k (by simp at hk; omega)
      rw [show 4 * (k + 1) = 4 * k + 4 by ring]
      simp only [agg4, List.getD_cons_succ, h]
termination_by w.length

/-- the hours of a run in terms of the boxes of its last level -/
theorem cascade_cells {rnd : Nat → ℝ} {r : CascadeOut ℝ} (h : disaggPrecCascade api rnd (dailyS d0 n v) opts true level 0 test = .ok r)
    {i : Nat} (hi : i < n) : dayCells r.series (d0 + i) = day24 fun k => if (v i).isNan then .nan else
      .fin (∑ m ∈ Finset.range 4, (r.levels.getD 4 []).getD ((4 * (24 * i + k) + m) / 3) 0 / 3) := by
  obtain ⟨hl, w, levels, fine, s, hz, _, hc, hlev, ha, rfl⟩ := disagg_inv h
  rw [dailyS_length] at hl
  rw [dailyS_values] at hz
  obtain ⟨z1, z2⟩ := zeroMissing_ok hz
  simp only [if_true] at hlev hc
  have hb := levelLoop_last hlev
  have hq := hb.trans (quarterHours_split _ hb.nonneg)
  have hh : BlockSplit 24 w (hourlyFromQuarter (quarterHours (levels.getLastD []))) := by
    rw [hourlyFromQuarter_eq]; exact BlockSplit.agg (m := 24) hq
  have hlen : (hourlyFromQuarter (quarterHours (levels.getLastD []))).length = 24 * n := by
    rw [hh.length, z1]; simp
  unfold assembleSeries at ha
  simp only [if_true] at ha
  rw [hourlyIndex_daily api d0 (by omega : 0 < n) v false (fun _ _ => XF.nan)] at ha
  have hm := make_hourly (d0 := d0) (n := n) _ hlen (fun _ _ => 0)
  have hidx : Series.index (hourlyS d0 n fun _ _ => (XF.nan : XF ℝ)) = Series.index (hourlyS d0 n fun _ _ => (0 : ℝ)) := by
    rw [hourlyS_index, hourlyS_index]
  rw [hidx] at ha
  simp only [bind, Except.bind, hm] at ha
  injection ha with ha
  injection ha with ha1 ha2
  have hq4 : levels.getLastD [] = levels.getD 4 [] := by
    rw [List.getLastD_eq_getLast?, List.getLast?_eq_getElem?, levelLoop_length hlev, List.getD_eq_getElem?_getD]
  have hql : (quarterHours (levels.getLastD [])).length = 96 * n := by
    rw [hq.length, z1]; simp
  simp only [← ha2, restoreMissing_hourly, ne_eq, not_true_eq_false, if_false, dayCells_hourlyS d0 _ hi]
  refine day24_congr fun k hk => ?_
  congr 2
  simp only [blockEntry]
  rw [hourlyFromQuarter_eq, agg4_getD _ _ (by rw [hql]; omega)]
  simp only [quarterHours_getD, hq4, Finset.sum_range_succ, Finset.sum_range_zero, zero_add, add_zero]

theorem cascade_hour {rnd : Nat → ℝ} {r : CascadeOut ℝ} (h : disaggPrecCascade api rnd (dailyS d0 n v) opts true level 0 test = .ok r)
    {i : Nat} (hi : i < n) {x : ℝ} (hx : v i = .fin x) {k : Nat} (hk : k < 24) :
    hourAmount (.ok r) (d0 + i) k = ∑ m ∈ Finset.range 4, (r.levels.getD 4 []).getD ((4 * (24 * i + k) + m) / 3) 0 / 3 := by
  unfold hourAmount
  simp only [cascade_cells h hi]
  rw [List.getD_eq_getElem _ _ (by simpa using hk)]
  simp only [day24, List.getElem_map, List.getElem_range, hx, XF.isNan]
  simp only [Bool.false_eq_true, if_false]

/-- **C136** (hours): with hourly output, if the expected shares of the halves lie between `α` and `β`, the expected precipitation of every hour of a day with
the amount `x` lies between 32 `α ^ 5` and 32 `β ^ 5` times `x / 24`. -/
theorem C136_hours (hU : UniformDraws P U) (hn : 2 ≤ n)
    (hv : ∀ i < n, v i = .nan ∨ ∃ x, 0 ≤ x ∧ v i = .fin x)
    (hq : ∀ l b t, (q l b t).Proper) (hs : StatsAre opts 5 q thr) {α β : ℝ} (hα : 0 ≤ α)
    (hsh : ∀ l b t, α ≤ (q l b t).firstShare ∧ (q l b t).firstShare ≤ β ∧ α ≤ (q l b t).secondShare ∧ (q l b t).secondShare ≤ β)
    {i : Nat} (hi : i < n) {x : ℝ} (hx : v i = .fin x) {k : Nat} (hk : k < 24) :
    Integrable (fun ω => hourAmount (disaggPrecCascade api (fun k => U k ω) (dailyS d0 n v) opts true level 0 test) (d0 + i) k) P ∧
    32 * α ^ 5 * (x / 24) ≤ ∫ ω, hourAmount (disaggPrecCascade api (fun k => U k ω) (dailyS d0 n v) opts true level 0 test) (d0 + i) k ∂P ∧
    ∫ ω, hourAmount (disaggPrecCascade api (fun k => U k ω) (dailyS d0 n v) opts true level 0 test) (d0 + i) k ∂P ≤ 32 * β ^ 5 * (x / 24) := by
  obtain ⟨_, hE⟩ := cascade_expect (P := P) (api := api) (shift := 0) (d0 := d0) (hourly := true) (level := level) (test := test) (L := 5) hU (.inl rfl) hn hv rfl
    (by norm_num) (by norm_num) hq hs
  obtain ⟨i1, i2⟩ := hE (fun ω => hourAmount (disaggPrecCascade api (fun k => U k ω) (dailyS d0 n v) opts true level 0 test) (d0 + i) k)
    (fun ls => ∑ m ∈ Finset.range 4, (ls.getD 4 []).getD ((4 * (24 * i + k) + m) / 3) 0 / 3) (by
      intro ω r h
      simp only [h]
      exact cascade_hour h hi hx hk)
  refine ⟨i1, ?_⟩
  rw [i2]
  have hlen : (dailyAmounts n v).length = n := by simp [dailyAmounts]
  have hday : (dailyAmounts n v).getD i 0 = x := by
    rw [List.getD_eq_getElem _ _ (by omega)]
    simp [dailyAmounts, hx]
  have hb : ∀ m < 4, α ^ 5 * x ≤ ∑ ls ∈ outcomes 5 (dailyAmounts n v), levelsProb q thr 0 none (dailyAmounts n v) ls * (ls.getD 4 []).getD ((4 * (24 * i + k) + m) / 3) 0 ∧
      ∑ ls ∈ outcomes 5 (dailyAmounts n v), levelsProb q thr 0 none (dailyAmounts n v) ls * (ls.getD 4 []).getD ((4 * (24 * i + k) + m) / 3) 0 ≤ β ^ 5 * x := by
    intro m hm
    have h := levels_box (thr := thr) hq hα hsh 4 5 0 none (dailyAmounts n v) ((4 * (24 * i + k) + m) / 3) (by norm_num) (dailyAmounts_nonneg hv)
      (by rw [hlen]; omega)
    rw [show (4 * (24 * i + k) + m) / 3 / 2 ^ (4 + 1) = i by omega, hday] at h
    exact h
  have e : ∑ ls ∈ outcomes 5 (dailyAmounts n v), levelsProb q thr 0 none (dailyAmounts n v) ls *
        ∑ m ∈ Finset.range 4, (ls.getD 4 []).getD ((4 * (24 * i + k) + m) / 3) 0 / 3 =
      ∑ m ∈ Finset.range 4, (∑ ls ∈ outcomes 5 (dailyAmounts n v), levelsProb q thr 0 none (dailyAmounts n v) ls * (ls.getD 4 []).getD ((4 * (24 * i + k) + m) / 3) 0) / 3 := by
    simp only [Finset.mul_sum, Finset.sum_div]
    rw [Finset.sum_comm]
    exact Finset.sum_congr rfl fun _ _ => Finset.sum_congr rfl fun _ _ => by ring
  rw [e]
  constructor
  · have := Finset.card_nsmul_le_sum (Finset.range 4) _ (α ^ 5 * x / 3) fun m hm => div_le_div_of_nonneg_right (hb m (Finset.mem_range.1 hm)).1 (by norm_num : (0 : ℝ) ≤ 3)
    simp only [Finset.card_range, nsmul_eq_mul] at this
    refine le_trans (le_of_eq ?_) this
    push_cast; ring
  · have := Finset.sum_le_card_nsmul (Finset.range 4) _ (β ^ 5 * x / 3) fun m hm => div_le_div_of_nonneg_right (hb m (Finset.mem_range.1 hm)).2 (by norm_num : (0 : ℝ) ≤ 3)
    simp only [Finset.card_range, nsmul_eq_mul] at this
    refine le_trans this (le_of_eq ?_)
    push_cast; ring

/-- **C136** (balanced statistics): if P(0/1) = P(1/0) and the weight histograms are symmetric, every box of every level gets on average the equal part of its
day and every hour a 24th of its day, up to the rounding of the class limits to four digits in the code: a factor between 1 - 1/17500 and 1 + 1/17500 per level, for
the hours less than 0.03 %. -/
theorem C136_balanced (hU : UniformDraws P U)
    (ht : hourly = true ∨ test = false ∨ 9 ≤ level) (hn : 2 ≤ n)
    (hv : ∀ i < n, v i = .nan ∨ ∃ x, 0 ≤ x ∧ v i = .fin x) (hL : L = if hourly then 5 else level) (h1 : 1 ≤ L) (h11 : L ≤ 11)
    (hq : ∀ l b t, (q l b t).Proper) (hs : StatsAre opts L q thr)
    (hp : ∀ l b t, (q l b t).p01 = (q l b t).p10) (hw : ∀ l b t k, (q l b t).w k = (q l b t).w (Fin.rev k)) :
    (∀ l < L, ∀ j < n * 2 ^ (l + 1), ∀ x, v (j / 2 ^ (l + 1)) = .fin x →
      (1 - 1 / 17500) ^ (l + 1) * (x / 2 ^ (l + 1)) ≤
        ∫ ω, amountIn (disaggPrecCascade api (fun k => U k ω) (dailyS d0 n v) opts hourly level shift test) l j ∂P ∧
      ∫ ω, amountIn (disaggPrecCascade api (fun k => U k ω) (dailyS d0 n v) opts hourly level shift test) l j ∂P ≤
        (1 + 1 / 17500) ^ (l + 1) * (x / 2 ^ (l + 1))) ∧
    (hourly = true → shift = 0 → ∀ i < n, ∀ x, v i = .fin x → ∀ k < 24,
      |∫ ω, hourAmount (disaggPrecCascade api (fun k => U k ω) (dailyS d0 n v) opts hourly level shift test) (d0 + i) k ∂P - x / 24| ≤ 3 / 10000 * (x / 24)) := by
  have half : ∀ l b t, (1 / 2 - 1 / 35000 : ℝ) ≤ (q l b t).firstShare ∧ (q l b t).firstShare ≤ 1 / 2 + 1 / 35000 ∧
      (1 / 2 - 1 / 35000 : ℝ) ≤ (q l b t).secondShare ∧ (q l b t).secondShare ≤ 1 / 2 + 1 / 35000 := by
    intro l b t
    have hadd := firstShare_add (hq l b t)
    obtain ⟨⟨p1, p2, wn⟩, p3, h⟩ := hq l b t
    have hmean : ∑ c, (q l b t).w c * centre c - 1 / 2 ≤ 1 / 35000 ∧ -(1 / 35000) ≤ ∑ c, (q l b t).w c * centre c - 1 / 2 := by
      have w := hw l b t
      have w0 : (q l b t).w 0 = (q l b t).w 6 := w 0
      have w1 : (q l b t).w 1 = (q l b t).w 5 := w 1
      have w2 : (q l b t).w 2 = (q l b t).w 4 := w 2
      have n0 := wn 6
      have n1 := wn 5
      have n2 := wn 4
      have n3 := wn 3
      simp only [Fin.sum_univ_seven] at h ⊢
      simp only [centre0, centre1, centre2, centre3, centre4, centre5, centre6]
      rw [w0, w1, w2] at h ⊢
      constructor <;> linarith
    have hf : (q l b t).firstShare - 1 / 2 = (1 - 2 * (q l b t).p10) * (∑ c, (q l b t).w c * centre c - 1 / 2) := by
      unfold SplitLaw.firstShare
      rw [hp l b t]
      ring
    have hp' := hp l b t
    have c0 : 0 ≤ 1 - 2 * (q l b t).p10 := by linarith
    have c1 : 1 - 2 * (q l b t).p10 ≤ 1 := by linarith
    have hb : |(q l b t).firstShare - 1 / 2| ≤ 1 / 35000 := by
      rw [hf, abs_mul, abs_of_nonneg c0]
      calc _ ≤ 1 * (1 / 35000 : ℝ) := mul_le_mul c1 (abs_le.2 ⟨hmean.2, hmean.1⟩) (abs_nonneg _) (by norm_num)
        _ = _ := one_mul _
    rw [abs_le] at hb
    exact ⟨by linarith, by linarith, by linarith, by linarith⟩
  constructor
  · intro l hl j hj x hx
    obtain ⟨_, h⟩ := C136_boxes (P := P) (api := api) (shift := shift) (d0 := d0) hU ht hn hv hL h1 h11 hq hs (by norm_num) half
    obtain ⟨_, a, b⟩ := h l hl j hj x hx
    have ea : (1 / 2 - 1 / 35000 : ℝ) ^ (l + 1) * x = (1 - 1 / 17500) ^ (l + 1) * (x / 2 ^ (l + 1)) := by
      rw [show (1 / 2 - 1 / 35000 : ℝ) = (1 - 1 / 17500) / 2 by norm_num, div_pow]; ring
    have eb : (1 / 2 + 1 / 35000 : ℝ) ^ (l + 1) * x = (1 + 1 / 17500) ^ (l + 1) * (x / 2 ^ (l + 1)) := by
      rw [show (1 / 2 + 1 / 35000 : ℝ) = (1 + 1 / 17500) / 2 by norm_num, div_pow]; ring
    rw [ea] at a; rw [eb] at b
    exact ⟨a, b⟩
  · rintro rfl rfl i hi x hx k hk
    rw [if_pos rfl] at hL
    subst hL
    obtain ⟨_, a, b⟩ := C136_hours (P := P) (api := api) (level := level) (test := test) (d0 := d0) hU hn hv hq hs (by norm_num) half hi hx hk
    have hx0 : 0 ≤ x := by
      rcases hv i hi with e | ⟨y, hy, e⟩
      · rw [e] at hx; cases hx
      · rw [e] at hx; injection hx with hx; rw [← hx]; exact hy
    have ca : (1 - 3 / 10000 : ℝ) ≤ 32 * (1 / 2 - 1 / 35000) ^ 5 := by norm_num
    have cb : 32 * (1 / 2 + 1 / 35000 : ℝ) ^ 5 ≤ 1 + 3 / 10000 := by norm_num
    have hx24 : 0 ≤ x / 24 := by positivity
    have a' := (mul_le_mul_of_nonneg_right ca hx24).trans a
    have b' := b.trans (mul_le_mul_of_nonneg_right cb hx24)
    rw [abs_le]
    constructor <;> linarith

end

/-- statistics with P(0/1) = P(1/0) = 1/4 and equal weights for every class and type -/
def balancedStats : CascStats ℝ where
  p01 := fun _ _ => .fin (1 / 4)
  p10 := fun _ _ => .fin (1 / 4)
  pxx := fun _ _ => .fin (1 / 2)
  wxx := fun _ _ _ => .fin (1 / 7)
  threshold := [.fin 1, .fin 1, .fin 1, .fin 1, .fin 1]
  percentile := 50

theorem balanced_half : (⟨1 / 4, 1 / 4, fun _ => 1 / 7⟩ : SplitLaw).firstShare = 1 / 2 := by
  simp only [SplitLaw.firstShare, Fin.sum_univ_seven, centre0, centre1, centre2, centre3, centre4, centre5, centre6]
  norm_num

/-- C136 at work: 4 mm on the first of two days, balanced statistics, hourly output: each hour of the first day gets 4/24 mm on average. -/
example (k : Nat) (hk : k < 24) : ∫ ω, hourAmount (disaggPrecCascade .modern (fun k => ω k) (dailyS 0 2 fun i => if i = 0 then .fin 4 else .fin 0)
    (.one balancedStats) true 5 0 false) 0 k ∂(Measure.infinitePi fun _ : Nat => unit) = 4 / 24 := by
  have hq : (⟨1 / 4, 1 / 4, fun _ => 1 / 7⟩ : SplitLaw).Proper := ⟨⟨by norm_num, by norm_num, fun _ => by norm_num⟩, by norm_num, by norm_num⟩
  have h2 : (⟨1 / 4, 1 / 4, fun _ => 1 / 7⟩ : SplitLaw).secondShare = 1 / 2 := by linarith [firstShare_add hq, balanced_half]
  obtain ⟨_, a, b⟩ := C136_hours (P := Measure.infinitePi fun _ : Nat => unit) (U := fun k ω => ω k) (api := .modern) (opts := .one balancedStats) (level := 5)
    (test := false) (d0 := 0) (n := 2) (v := fun i => if i = 0 then .fin 4 else .fin 0) (q := fun _ _ _ => ⟨1 / 4, 1 / 4, fun _ => 1 / 7⟩)
    (thr := fun _ => .fin 1) (α := 1 / 2) (β := 1 / 2)
    uniformDraws_exist (by norm_num) (by intro i _; by_cases h : i = 0 <;> simp [h]) (fun _ _ _ => hq)
    ⟨by simp, by
      intro l hl
      refine ⟨balancedStats, ⟨rfl, ?_⟩, fun b t => ⟨rfl, rfl, fun k => rfl⟩⟩
      interval_cases l <;> rfl⟩ (by norm_num) (fun _ _ _ => ⟨balanced_half.ge, balanced_half.le, h2.ge, h2.le⟩) (i := 0) (by norm_num) (x := 4) rfl hk
  norm_num at a b ⊢
  exact le_antisymm b a

/-- C136 at work for unbalanced statistics (P(0/1) = 1/4, P(1/0) = 1/2): the first half of a box gets 5/8 of it on average. -/
example : (⟨1 / 4, 1 / 2, fun _ => 1 / 7⟩ : SplitLaw).firstShare = 5 / 8 := by
  simp only [SplitLaw.firstShare, Fin.sum_univ_seven, centre0, centre1, centre2, centre3, centre4, centre5, centre6]
  norm_num

/-- The rounding of the class limits shows: with symmetric statistics that always use the middle weight class, the first half gets less than one half on average. -/
example : (⟨0, 0, fun k => if k = 3 then 1 else 0⟩ : SplitLaw).firstShare = 1 / 2 - 1 / 35000 := by
  simp [SplitLaw.firstShare, centre3]
  norm_num

end

end Melodist
