import Verif.Lemmas.BuildCasc
import Mathlib.Data.Rat.Floor

/-!
# C24 - C28, C76: seasonal subsets, aggregation, cascade statistics
-/

set_option linter.unusedSectionVars false

namespace Melodist
open Spec

section C24
variable {V : Type}

/-- **C24.** The subset contains exactly the rows of the requested months (each once, for distinct months) in chronological order. -/
theorem C24_seasonal_subset (df : Series V) (months : List Int) (r : Series V) (h : seasonalSubset df months = .ok r) :
    (months.Nodup → r.Perm (df.filter fun q => decide (monthOf q.1 ∈ months))) ∧
    (∀ q, q ∈ r ↔ q ∈ df ∧ monthOf q.1 ∈ months) ∧ r.Pairwise (fun a b => a.1 ≤ b.1) := by
  obtain ⟨hne, rfl⟩ := seasonalSubset_ok h
  refine ⟨fun hd => (List.perm_insertionSort _ _).trans (flatMap_monthRows_perm df months hd), ?_, sortTime_pairwise _⟩
  intro q
  rw [(List.perm_insertionSort _ _).mem_iff, List.mem_flatMap]
  constructor
  · rintro ⟨m, hm, hq⟩
    simp only [monthRows, List.mem_filter, beq_iff_eq] at hq
    exact ⟨hq.1, hq.2 ▸ hm⟩
  · rintro ⟨h1, h2⟩
    exact ⟨_, h2, by simp [monthRows, h1]⟩

/-- **C24**, chronological frames: the subset is the frame without the other months. -/
theorem C24_seasonal_subset_sorted (df : Series V) (hs : df.Pairwise fun a b => a.1 < b.1) (months : List Int) (hne : months ≠ []) (hd : months.Nodup) :
    seasonalSubset df months = .ok (df.filter fun q => decide (monthOf q.1 ∈ months)) := by
  rw [seasonalSubset_cons df hne]
  congr 1
  have hp := (List.perm_insertionSort (fun a b : Time × V => a.1 ≤ b.1) _).trans (flatMap_monthRows_perm df months hd)
  have hf : (df.filter fun q => decide (monthOf q.1 ∈ months)).Pairwise fun a b => a.1 < b.1 := hs.filter _
  have hinj : ∀ a ∈ df, ∀ b ∈ df, a.1 = b.1 → a = b := by
    intro a ha b hb hab
    obtain ⟨i, hi, rfl⟩ := List.getElem_of_mem ha
    obtain ⟨j, hj, rfl⟩ := List.getElem_of_mem hb
    rcases lt_trichotomy i j with hij | rfl | hij
    · have := List.pairwise_iff_getElem.1 hs i j hi hj hij; omega
    · rfl
    · have := List.pairwise_iff_getElem.1 hs j i hj hi hij; omega
  refine hp.eq_of_pairwise ?_ (sortTime_pairwise _) (hf.imp fun h => h.le)
  intro a b ha hb h1 h2
  have ha' : a ∈ df := List.mem_of_mem_filter (hp.mem_iff.1 ha)
  have hb' : b ∈ df := List.mem_of_mem_filter hb
  exact hinj a ha' b hb' (le_antisymm h1 h2)

/-- **C24**, months 'all' (the default): the whole frame, sorted; and an empty list of months. -/
theorem C24_all_months (df : Series V) :
    (∃ r, seasonalSubset df [1, 2, 3, 4, 5, 6, 7, 8, 9, 10, 11, 12] = .ok r ∧ r.Perm df ∧ r.Pairwise (fun a b => a.1 ≤ b.1)) ∧
    seasonalSubset df [] = .error .unboundLocalError := by
  refine ⟨⟨_, rfl, ?_, sortTime_pairwise _⟩, rfl⟩
  refine (List.perm_insertionSort _ _).trans ((flatMap_monthRows_perm df _ (by decide)).trans (List.Perm.of_eq ?_))
  rw [List.filter_eq_self]
  intro q _
  have := monthOf_range q.1
  simp
  omega

-- rows of January 1970, February 1970 and again January, out of order
example : seasonalSubset (V := Nat) [(40 * DAY, 0), (3 * DAY, 1), (366 * DAY, 2)] [1] = .ok [(3 * DAY, 1), (366 * DAY, 2)] := by decide +kernel
example : seasonalSubset (V := Nat) [(40 * DAY, 0), (3 * DAY, 1), (366 * DAY, 2)] [2, 1] =
    .ok [(3 * DAY, 1), (40 * DAY, 0), (366 * DAY, 2)] := by decide +kernel

end C24

variable {K : Type} [Field K] [LinearOrder K] [IsStrictOrderedRing K] [FloorRing K]

/-- **C25.** The aggregated series has one row for every two input rows: the sum of the two values at the time of the second row; the total is
that of the input without an odd last row. -/
theorem C25_aggregation_mass (data : Series (XF K)) (p : K) (s : CascStats K) (v : Series (XF K))
    (h : aggregatePrecipitation data p = .ok (s, v)) :
    v.length = data.length / 2 ∧
    (∀ (j : Nat) (a b : Time × XF K), data[2 * j]? = some a → data[2 * j + 1]? = some b → v[j]? = some (b.1, a.2 + b.2)) ∧
    sumCells v.values = sumCells (data.values.take (2 * (data.length / 2))) := by
  obtain ⟨-, rfl, -⟩ := aggregate_inv h
  exact ⟨pairSums_length data, fun j a b => pairSums_getElem? data j a b, pairSums_sum data⟩

/-- all matrices are probability distributions, up to `ε` in the sums: for every intensity class and box type the three branching probabilities are
non-negative numbers with sum 1, and so are the seven histogram weights -/
def StatsWithin (ε : K) (s : CascStats K) : Prop :=
  ∀ b t, (∃ x y z : K, s.p01 b t = .fin x ∧ s.p10 b t = .fin y ∧ s.pxx b t = .fin z ∧ 0 ≤ x ∧ 0 ≤ y ∧ 0 ≤ z ∧ |x + y + z - 1| ≤ ε) ∧
    ∃ w : Fin 7 → K, (∀ k, s.wxx k b t = .fin (w k)) ∧ (∀ k, 0 ≤ w k) ∧ |∑ k, w k - 1| ≤ ε

/-- the matrices are the sample data of the constructor -/
def IsSampleData (s : CascStats K) : Prop :=
  ∀ b t, s.p01 b t = CascStats.init.fillSample.p01 b t ∧ s.p10 b t = CascStats.init.fillSample.p10 b t ∧
    s.pxx b t = CascStats.init.fillSample.pxx b t ∧ ∀ k, s.wxx k b t = CascStats.init.fillSample.wxx k b t

theorem isSampleData_within {s : CascStats K} (h : IsSampleData s) : StatsWithin (1 / 10 ^ 14) s := by
  intro b t
  obtain ⟨h1, h2, h3, h4⟩ := h b t
  obtain ⟨a1, a2, a3, a4⟩ := sample_branch (K := K) b t
  obtain ⟨b1, b2⟩ := sample_hist (K := K) b t
  exact ⟨⟨_, _, _, h1, h2, h3, a1, a2, a3, a4⟩, _, h4, b1, b2⟩

omit [FloorRing K] in
theorem StatsWithin.mono {ε δ : K} (h : ε ≤ δ) {s : CascStats K} (hs : StatsWithin ε s) : StatsWithin δ s := by
  intro b t
  obtain ⟨⟨x, y, z, h1, h2, h3, h4, h5, h6, h7⟩, w, g1, g2, g3⟩ := hs b t
  exact ⟨⟨x, y, z, h1, h2, h3, h4, h5, h6, h7.trans h⟩, w, g1, g2, g3.trans h⟩

/-- **C26.** For every series of missing or non-negative values, the statistics are probability distributions: exactly, or they are the built-in sample
data (sums 1 up to rounding of the last printed digit). -/
theorem C26_statistics_distributions (data : Series (XF K)) (p : K) (hd : ∀ r ∈ data, r.2 = .nan ∨ ∃ x, 0 ≤ x ∧ r.2 = .fin x)
    (s : CascStats K) (v : Series (XF K)) (h : aggregatePrecipitation data p = .ok (s, v)) :
    StatsWithin 0 s ∨ (IsSampleData s ∧ StatsWithin (1 / 10 ^ 14) s) := by
  obtain ⟨-, -, mv, ty, -, -, rfl⟩ := aggregate_inv h
  have hc : CountsOk (aggCount mv (valuePairs data.values) ty {}) := by
    refine aggCount_ok _ _ _ ?_ countsOk_zero
    intro q hq
    obtain ⟨h1, h2⟩ := mem_valuePairs hq
    obtain ⟨r1, hr1, e1⟩ := List.mem_map.1 h1
    obtain ⟨r2, hr2, e2⟩ := List.mem_map.1 h2
    rw [← e1, ← e2]
    exact ⟨hd r1 hr1, hd r2 hr2⟩
  rcases finishStats_dist { CascStats.init with percentile := p, threshold := [.fin mv] } hc with hl | hr
  · left
    intro b t
    obtain ⟨⟨x, y, z, h1, h2, h3, h4, h5, h6, h7⟩, w, g1, g2, g3⟩ := hl b t
    exact ⟨⟨x, y, z, h1, h2, h3, h4, h5, h6, by simp [h7]⟩, w, g1, g2, by simp [g3]⟩
  · right
    have : IsSampleData (finishStats { CascStats.init with percentile := p, threshold := [.fin mv] }
        (aggCount mv (valuePairs data.values) ty {})) := by
      intro b t
      obtain ⟨h1, h2⟩ := hr
      exact ⟨(h1 b t).1, (h1 b t).2.1, (h1 b t).2.2, fun k => h2 k b t⟩
    exact ⟨this, isSampleData_within this⟩

/-- **C26**, values: for complete non-negative data the branching probabilities and histogram weights are the relative frequencies in the data (1/7 for
a histogram without any observation), unless some combination of intensity class and box type has no wet box at all: then the sample data are
returned. -/
theorem C26_frequencies (data : Series (XF K)) (n : Nat) (x : Nat → K) (hx : ∀ i, 0 ≤ x i)
    (hd : data.values = (List.range n).map fun i => .fin (x i)) (p : K) (s : CascStats K) (v : Series (XF K))
    (h : aggregatePrecipitation data p = .ok (s, v)) :
    ∃ thr, s.threshold = [.fin thr] ∧ s.percentile = p ∧
      let N := fun b t => boxCount x (n / 2) thr b t
      ((∃ b t, N b t (fun _ _ => True) = 0) → IsSampleData s) ∧
      ((∀ b t, N b t (fun _ _ => True) ≠ 0) → ∀ b t,
        s.p01 b t = .fin ((N b t (fun u v => u = 0 ∧ 0 < v) : K) / N b t (fun _ _ => True)) ∧
        s.p10 b t = .fin ((N b t (fun u v => 0 < u ∧ v = 0) : K) / N b t (fun _ _ => True)) ∧
        s.pxx b t = .fin ((N b t (fun u v => 0 < u ∧ 0 < v) : K) / N b t (fun _ _ => True)) ∧
        (N b t (fun u v => 0 < u ∧ 0 < v) = 0 → ∀ k, s.wxx k b t = .fin (1 / 7)) ∧
        (N b t (fun u v => 0 < u ∧ 0 < v) ≠ 0 → ∀ k, s.wxx k b t =
          .fin ((N b t (fun u v => 0 < u ∧ 0 < v ∧ classLimit k.castSucc < u / (u + v) ∧ u / (u + v) ≤ classLimit k.succ) : K) /
            N b t (fun u v => 0 < u ∧ 0 < v)))) := by
  obtain ⟨-, rfl, mv, ty, -, hty, rfl⟩ := aggregate_inv h
  have hc : CountsOk (aggCount mv (valuePairs data.values) ty {}) := by
    refine aggCount_ok _ _ _ ?_ countsOk_zero
    intro q hq
    obtain ⟨h1, h2⟩ := mem_valuePairs hq
    rw [hd] at h1 h2
    obtain ⟨i, _, e1⟩ := List.mem_map.1 h1
    obtain ⟨j, _, e2⟩ := List.mem_map.1 h2
    exact ⟨.inr ⟨_, hx i, e1.symm⟩, .inr ⟨_, hx j, e2.symm⟩⟩
  have hcnt := fun b t => aggregate_counts hd hx hty mv b t
  refine ⟨mv, (finishStats_fields _ _).1, (finishStats_fields _ _).2, ?_⟩
  intro N
  rcases finishStats_cases { CascStats.init with percentile := p, threshold := [.fin mv] } hc with ⟨hnb, hl⟩ | ⟨⟨b, t, hz⟩, hs⟩
  · refine ⟨?_, ?_⟩
    · rintro ⟨b, t, hz⟩
      exact absurd ((hcnt b t).1.trans hz) (hnb b t)
    · intro _ b t
      obtain ⟨c1, c2, c3, c4, c5, c6⟩ := hcnt b t
      obtain ⟨l1, l2, l3, l4⟩ := hl b t
      simp only [c1, c2, c3, c4, c5, c6] at l1 l2 l3 l4
      refine ⟨l1, l2, l3, fun h0 k => ?_, fun h0 k => ?_⟩
      · rw [l4 k, if_pos h0]
      · rw [l4 k, if_neg h0]
  · refine ⟨?_, ?_⟩
    · intro _ b t
      exact ⟨(hs.1 b t).1, (hs.1 b t).2.1, (hs.1 b t).2.2, fun k => hs.2 k b t⟩
    · intro hall
      exact absurd ((hcnt b t).1.symm.trans hz) (hall b t)

/-- **C76.** The threshold splits the wet boxes at the requested percentile: with `m` wet boxes and `q` the integer part of `(m-1)·p/100`, at least
`q+1` wet boxes do not exceed it and at least `m-1-q` (and at least one) are not below it. -/
theorem C76_threshold_percentile (data : Series (XF K)) (p : K) (s : CascStats K) (v : Series (XF K))
    (h : aggregatePrecipitation data p = .ok (s, v)) :
    ∃ thr, s.threshold = [.fin thr] ∧ 0 ≤ p ∧ p ≤ 100 ∧ ∃ (wet : List K) (q : Nat),
      (∀ y : K, wet.count y = if 0 < y then v.values.count (.fin y) else 0) ∧
      (q : K) ≤ ((wet.length : K) - 1) * p / 100 ∧ ((wet.length : K) - 1) * p / 100 < q + 1 ∧
      q + 1 ≤ wet.countP (fun y => decide (y ≤ thr)) ∧ wet.length - (q + 1) ≤ wet.countP (fun y => decide (thr ≤ y)) ∧ ∃ u ∈ wet, thr ≤ u := by
  obtain ⟨-, rfl, mv, ty, hp, -, rfl⟩ := aggregate_inv h
  obtain ⟨p0, p1, -, q, h1, h2, -, h3, h4, h5⟩ := npPercentile_spec hp
  refine ⟨mv, (finishStats_fields _ _).1, p0, p1, wetValues (pairSums data).values, q, ?_, h1, h2, h3, h4, h5⟩
  intro y
  generalize (pairSums data).values = l
  induction l with
  | nil => simp [wetValues]
  | cons a l ih =>
    unfold wetValues at ih ⊢
    cases a with
    | fin z =>
      by_cases hz : 0 < z
      · simp only [List.filterMap_cons, hz, if_true, List.count_cons, ih, beq_iff_eq, XF.fin.injEq]
        by_cases hy : 0 < y
        · simp [hy]
        · have : z ≠ y := by rintro rfl; exact hy hz
          simp [hy, this]
      · simp only [List.filterMap_cons, hz, if_false, List.count_cons, ih, beq_iff_eq, XF.fin.injEq]
        by_cases hy : 0 < y
        · have : z ≠ y := by rintro rfl; exact hz hy
          simp [hy, this]
        · simp [hy]
    | _ => simp [List.filterMap_cons, List.count_cons, ih]

/-! ### concrete cases -/

/-- hourly values whose boxes (sums of two) are 1 1 1 0 5 5 5 0 1 0 5: every position type occurs below and above the median -/
def exampleObs : Series (XF ℚ) :=
  ([0, 1, 1/2, 1/2, 1, 0, 0, 0, 2, 3, 1, 4, 5, 0, 0, 0, 1/4, 3/4, 0, 0, 0, 5].zipIdx).map fun q => ((q.2 : Int) * HOUR, .fin q.1)

theorem exampleObs_result : okAnd (aggregatePrecipitation exampleObs 50) (fun (s, v) => decide (s.threshold = [.fin 3] ∧
    v.values = [1, 1, 1, 0, 5, 5, 5, 0, 1, 0, 5].map XF.fin ∧
    s.p01 0 0 = .fin 1 ∧ s.p10 0 2 = .fin 1 ∧ s.pxx 0 3 = .fin 1 ∧ s.pxx 1 0 = .fin 1 ∧ s.wxx 1 0 3 = .fin 1 ∧ s.wxx 2 1 0 = .fin 1 ∧
    s.wxx 0 0 0 = .fin (1 / 7))) = true := by decide +kernel

-- hypotheses of C25, C26, C76
example : (∃ s v, aggregatePrecipitation exampleObs 50 = .ok (s, v)) ∧ ∀ r ∈ exampleObs, r.2 = .nan ∨ ∃ x, 0 ≤ x ∧ r.2 = .fin x := by
  refine ⟨?_, ?_⟩
  · obtain ⟨⟨s, v⟩, h, -⟩ := okAnd_iff.1 exampleObs_result
    exact ⟨s, v, h⟩
  intro r hr
  have : ∀ r ∈ exampleObs, (match r.2 with | .fin x => decide (0 ≤ x) | _ => false) = true := by decide +kernel
  have := this r hr
  rcases h : r.2 with _ | _ | x | _ <;> rw [h] at this <;> simp at this
  exact .inr ⟨x, this, rfl⟩

end Melodist
