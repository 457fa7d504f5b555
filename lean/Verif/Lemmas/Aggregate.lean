import Verif.Model.Aggregate
import Verif.Lemmas.CascadeRun
import Mathlib.Algebra.BigOperators.Fin
import Mathlib.Algebra.BigOperators.Field
import Mathlib.Tactic.FieldSimp
import Mathlib.Tactic.Ring
import Mathlib.Tactic.NormNum
import Mathlib.Tactic.FinCases

/-!
# Helper lemmas for the aggregation of precipitation
-/

set_option linter.unusedSectionVars false

namespace Melodist
open Spec

variable {K : Type} [Field K] [LinearOrder K] [IsStrictOrderedRing K]

section pairs

theorem pairSums_length : ∀ s : Series (XF K), (pairSums s).length = s.length / 2
  | [] => by simp [pairSums]
  | [_] => by simp [pairSums]
  | a :: b :: rest => by
    have := pairSums_length rest
    simp only [pairSums, List.length_cons, this]
    omega

theorem valuePairs_length : ∀ s : List (XF K), (valuePairs s).length = s.length / 2
  | [] => by simp [valuePairs]
  | [_] => by simp [valuePairs]
  | a :: b :: rest => by
    have := valuePairs_length rest
    simp only [valuePairs, List.length_cons, this]
    omega

theorem pairSums_getElem? : ∀ (s : Series (XF K)) (j : Nat) (a b : Time × XF K), s[2 * j]? = some a → s[2 * j + 1]? = some b →
    (pairSums s)[j]? = some (b.1, a.2 + b.2)
  | [], j, a, b, h, _ => by simp at h
  | [x], 0, a, b, _, h => by simp at h
  | [x], j + 1, a, b, h, _ => by simp at h
  | x :: y :: rest, 0, a, b, h1, h2 => by
    simp at h1 h2; subst h1; subst h2; rfl
  | x :: y :: rest, j + 1, a, b, h1, h2 => by
    have := pairSums_getElem? rest j a b (by simpa [Nat.mul_add] using h1) (by simpa [Nat.mul_add] using h2)
    simpa [pairSums] using this

theorem valuePairs_getElem? : ∀ (s : List (XF K)) (j : Nat) (a b : XF K), s[2 * j]? = some a → s[2 * j + 1]? = some b →
    (valuePairs s)[j]? = some (a, b)
  | [], j, a, b, h, _ => by simp at h
  | [x], 0, a, b, _, h => by simp at h
  | [x], j + 1, a, b, h, _ => by simp at h
  | x :: y :: rest, 0, a, b, h1, h2 => by
    simp at h1 h2; subst h1; subst h2; rfl
  | x :: y :: rest, j + 1, a, b, h1, h2 => by
    have := valuePairs_getElem? rest j a b (by simpa [Nat.mul_add] using h1) (by simpa [Nat.mul_add] using h2)
    simpa [valuePairs] using this

theorem pairSums_values : ∀ s : Series (XF K), (pairSums s).values = (valuePairs s.values).map fun p => p.1 + p.2
  | [] => rfl
  | [_] => rfl
  | a :: b :: rest => by
    have := pairSums_values rest
    simp only [Series.values] at this ⊢
    simp only [pairSums, List.map_cons, valuePairs, this]

theorem mem_valuePairs : ∀ {s : List (XF K)} {p : XF K × XF K}, p ∈ valuePairs s → p.1 ∈ s ∧ p.2 ∈ s
  | [], p, h => by simp [valuePairs] at h
  | [_], p, h => by simp [valuePairs] at h
  | a :: b :: rest, p, h => by
    simp only [valuePairs, List.mem_cons] at h
    rcases h with rfl | h
    · simp
    · have := mem_valuePairs h
      simp [this.1, this.2]

theorem XF.add_assoc' (a b c : XF K) : a + b + c = a + (b + c) := by
  cases a <;> cases b <;> cases c <;> first | rfl | (show XF.fin _ = XF.fin _; congr 1; ring)

theorem pairSums_sum : ∀ s : Series (XF K), sumCells (pairSums s).values = sumCells (s.values.take (2 * (s.length / 2)))
  | [] => by simp [pairSums, Series.values]
  | [_] => by simp [pairSums, Series.values]
  | a :: b :: rest => by
    have := pairSums_sum rest
    have e : 2 * ((a :: b :: rest).length / 2) = 2 * (rest.length / 2) + 1 + 1 := by simp; omega
    rw [e]
    simp only [Series.values] at this ⊢
    simp only [pairSums, List.map_cons, List.take_succ_cons, sumCells, this, XF.add_assoc']

end pairs

/-! ### counting -/

theorem weightClass_some {w : K} (h0 : 0 < w) (h1 : w ≤ 1) : ∃ k, weightClass w = some k := by
  unfold weightClass
  cases hf : (List.finRange 7).find? fun k : Fin 7 => decide (wlower k < w ∧ w ≤ wupper k) with
  | some k => exact ⟨k, rfl⟩
  | none =>
    exfalso
    rw [List.find?_eq_none] at hf
    have h : ∀ k : Fin 7, ¬ (wlower k < w ∧ w ≤ wupper k) := fun k => by simpa using hf k (List.mem_finRange k)
    have a0 := h 0; have a1 := h 1; have a2 := h 2; have a3 := h 3; have a4 := h 4; have a5 := h 5; have a6 := h 6
    simp [wlower, wupper] at a0 a1 a2 a3 a4 a5 a6
    have := a6 (a5 (a4 (a3 (a2 (a1 (a0 h0))))))
    norm_num at this
    linarith

theorem Mat24.bump_apply (m : Mat24 Nat) (b b' : Fin 2) (t t' : Fin 4) :
    m.bump b t b' t' = m b' t' + if b' = b ∧ t' = t then 1 else 0 := by
  unfold Mat24.bump; split <;> simp

/-- the counters belong together -/
structure CountsOk (c : AggCounts) : Prop where
  sum : ∀ b t, c.p01 b t + c.p10 b t + c.pxx b t = c.nb b t
  xx : ∀ b t, c.nbxx b t = c.pxx b t
  hist : ∀ b t, ∑ k, c.wxx k b t = c.nbxx b t

theorem aggStep_ok {mv : K} {a b : XF K} (ha : a = .nan ∨ ∃ x, 0 ≤ x ∧ a = .fin x) (hb : b = .nan ∨ ∃ x, 0 ≤ x ∧ b = .fin x)
    (ty : Option BoxType) {c : AggCounts} (h : CountsOk c) : CountsOk (aggStep mv a b ty c) := by
  rcases ha with rfl | ⟨x, hx, rfl⟩
  · simpa [aggStep] using h
  rcases hb with rfl | ⟨y, hy, rfl⟩
  · simpa [aggStep] using h
  unfold aggStep
  simp only [XF.fin_add_fin, XF.lt_fin, XF.feq_fin]
  split
  · rename_i hpos
    generalize (if mv < x + y then (1 : Fin 2) else 0) = ba
    rcases hx.lt_or_eq with hx | rfl <;> rcases hy.lt_or_eq with hy | rfl
    · have n1 : ¬ y = 0 := hy.ne'
      have n2 : ¬ x = 0 := hx.ne'
      have hw0 : 0 < x / (x + y) := by positivity
      have hw1 : x / (x + y) ≤ 1 := by rw [div_le_one hpos]; linarith
      obtain ⟨k, hk⟩ := weightClass_some hw0 hw1
      simp only [hx, hy, n1, n2, and_true, and_false, false_and, if_false, if_true, hk]
      refine ⟨fun b t => ?_, fun b t => ?_, fun b t => ?_⟩
      · simp only [Mat24.bump_apply, ← h.sum b t]; ring
      · simp only [Mat24.bump_apply, h.xx b t]
      · simp only [Mat24.bump_apply, ← h.hist b t]
        rw [← Finset.add_sum_erase _ _ (Finset.mem_univ k), ← Finset.add_sum_erase _ (fun k => c.wxx k b t) (Finset.mem_univ k)]
        simp only [if_true, Mat24.bump_apply]
        have : ∑ x ∈ Finset.univ.erase k, (if x = k then (c.wxx x).bump ba (aggCol ty) else c.wxx x) b t =
            ∑ x ∈ Finset.univ.erase k, c.wxx x b t := by
          apply Finset.sum_congr rfl
          intro q hq
          rw [if_neg (Finset.ne_of_mem_erase hq)]
        rw [this]
        ring
    · simp only [hx, hx.ne', lt_irrefl, and_true, and_false, false_and, if_false, if_true]
      refine ⟨fun b t => ?_, h.xx, h.hist⟩
      simp only [Mat24.bump_apply, ← h.sum b t]; ring
    · simp only [hy, hy.ne', lt_irrefl, and_true, and_false, false_and, if_false, if_true]
      refine ⟨fun b t => ?_, h.xx, h.hist⟩
      simp only [Mat24.bump_apply, ← h.sum b t]; ring
    · simp at hpos
  · exact h

theorem aggCount_ok {mv : K} : ∀ (ps : List (XF K × XF K)) (tys : List (Option BoxType)) (c : AggCounts),
    (∀ p ∈ ps, (p.1 = .nan ∨ ∃ x, 0 ≤ x ∧ p.1 = .fin x) ∧ (p.2 = .nan ∨ ∃ x, 0 ≤ x ∧ p.2 = .fin x)) →
    CountsOk c → CountsOk (aggCount mv ps tys c)
  | [], _, c, _, h => by unfold aggCount; exact h
  | _ :: _, [], c, _, h => by unfold aggCount; exact h
  | (a, b) :: ps, ty :: tys, c, hp, h => by
    unfold aggCount
    refine aggCount_ok ps tys _ (fun p hp' => hp p (by simp [hp'])) ?_
    have := hp (a, b) (by simp)
    exact aggStep_ok this.1 this.2 ty h

theorem countsOk_zero : CountsOk {} := ⟨fun _ _ => rfl, fun _ _ => rfl, fun _ _ => by simp⟩

/-! ### from counts to percentages -/

/-- branching probabilities of one class and type -/
def BranchDist (s : CascStats K) (b : Fin 2) (t : Fin 4) : Prop :=
  ∃ x y z : K, s.p01 b t = .fin x ∧ s.p10 b t = .fin y ∧ s.pxx b t = .fin z ∧ 0 ≤ x ∧ 0 ≤ y ∧ 0 ≤ z ∧ x + y + z = 1

/-- weight histogram of one class and type -/
def HistDist (s : CascStats K) (b : Fin 2) (t : Fin 4) : Prop :=
  ∃ w : Fin 7 → K, (∀ k, s.wxx k b t = .fin (w k)) ∧ (∀ k, 0 ≤ w k) ∧ ∑ k, w k = 1

/-- the four matrices are the sample data -/
def IsSample (s : CascStats K) : Prop :=
  (∀ b t, s.p01 b t = .fin (sampleP01 b t) ∧ s.p10 b t = .fin (sampleP10 b t) ∧ s.pxx b t = .fin (samplePxx b t)) ∧
    ∀ k b t, s.wxx k b t = .fin (sampleWxx k b t)

theorem fillSample_isSample (s : CascStats K) : IsSample s.fillSample := ⟨fun _ _ => ⟨rfl, rfl, rfl⟩, fun _ _ _ => rfl⟩

theorem anyNan_eq_false {m : Mat24 (XF K)} : anyNan m = false ↔ ∀ b t, (m b t).isNan = false := by
  simp [anyNan, List.any_eq_false]

theorem ratio_of_ne {m d : Nat} (hd : d ≠ 0) : (.fin (m : K) / .fin (d : K) : XF K) = .fin ((m : K) / d) := by
  rw [XF.fin_div_fin_of_ne _ (by exact_mod_cast hd)]

theorem ratioMat_zero {m d : Mat24 Nat} {b : Fin 2} {t : Fin 4} (hd : d b t = 0) (hm : m b t = 0) : ratioMat (K := K) m d b t = .nan := by
  unfold ratioMat; rw [hd, hm]; simp

theorem ratioMat_ne {m d : Mat24 Nat} {b : Fin 2} {t : Fin 4} (hd : d b t ≠ 0) :
    ratioMat (K := K) m d b t = .fin ((m b t : K) / d b t) := ratio_of_ne hd

theorem finishStats_fields [FloorRing K] (s : CascStats K) (c : AggCounts) :
    (finishStats s c).threshold = s.threshold ∧ (finishStats s c).percentile = s.percentile := by
  unfold finishStats
  simp only
  split <;> split <;> (try split) <;> exact ⟨rfl, rfl⟩

/-- either the percentages of the counts (1/7 where a histogram is undefined), or the sample data -/
theorem finishStats_cases (s : CascStats K) {c : AggCounts} (h : CountsOk c) :
    ((∀ b t, c.nb b t ≠ 0) ∧ ∀ b t, (finishStats s c).p01 b t = .fin ((c.p01 b t : K) / c.nb b t) ∧
        (finishStats s c).p10 b t = .fin ((c.p10 b t : K) / c.nb b t) ∧ (finishStats s c).pxx b t = .fin ((c.pxx b t : K) / c.nb b t) ∧
        ∀ k, (finishStats s c).wxx k b t = .fin (if c.nbxx b t = 0 then 1 / 7 else (c.wxx k b t : K) / c.nbxx b t)) ∨
      ((∃ b t, c.nb b t = 0) ∧ IsSample (finishStats s c)) := by
  by_cases hz : ∃ b t, c.nb b t = 0
  · right
    refine ⟨hz, ?_⟩
    obtain ⟨b, t, hbt⟩ := hz
    have hp : c.p01 b t = 0 := by have := h.sum b t; omega
    have hnan : anyNan (ratioMat (K := K) c.p01 c.nb) = true := by
      by_contra hne
      have := anyNan_eq_false.1 (by simpa using hne) b t
      rw [ratioMat_zero hbt hp] at this
      simp at this
    unfold finishStats
    simp only [hnan, Bool.true_or, if_true]
    have : ((List.finRange 7).any fun k => anyNan ((CascStats.fillSample
        { s with p01 := ratioMat c.p01 c.nb, p10 := ratioMat c.p10 c.nb, pxx := ratioMat c.pxx c.nb,
                 wxx := fun k => ratioMat (c.wxx k) c.nbxx }).wxx k)) = false := by
      rw [List.any_eq_false]
      intro k _
      rw [Bool.not_eq_true, anyNan_eq_false]
      intro b t; rfl
    rw [if_neg (by rw [this]; simp)]
    exact fillSample_isSample _
  · left
    push Not at hz
    refine ⟨hz, fun b t => ?_⟩
    have hno : ∀ m : Mat24 Nat, anyNan (ratioMat (K := K) m c.nb) = false := by
      intro m
      rw [anyNan_eq_false]
      intro b t
      rw [ratioMat_ne (hz b t)]; rfl
    have hw0 : ∀ k, c.nbxx b t = 0 → c.wxx k b t = 0 := by
      intro k hk
      have := h.hist b t
      rw [hk] at this
      exact (Finset.sum_eq_zero_iff.1 this) k (Finset.mem_univ k)
    unfold finishStats
    simp only [hno, Bool.or_self, Bool.false_eq_true, if_false]
    by_cases hany : ((List.finRange 7).any fun k => anyNan (ratioMat (K := K) (c.wxx k) c.nbxx)) = true
    · rw [if_pos hany]
      have hsum : ((List.finRange 2).any fun b => (List.finRange 4).any fun t => ! decide (XF.feq
          (sumCells ((List.finRange 7).map fun k => (if (ratioMat (K := K) (c.wxx k) c.nbxx b t).isNan = true then XF.fin (1 / 7 : K) else
            ratioMat (c.wxx k) c.nbxx b t))) (.fin 0))) = true := by
        obtain ⟨k, _, hk⟩ := List.any_eq_true.1 hany
        have : ∃ b t, (ratioMat (K := K) (c.wxx k) c.nbxx b t).isNan = true := by
          by_contra hcon
          push Not at hcon
          have := anyNan_eq_false.2 fun b t => by simpa using hcon b t
          rw [this] at hk; simp at hk
        obtain ⟨b, t, hbt⟩ := this
        have hnb : c.nbxx b t = 0 := by
          by_contra hne
          rw [ratioMat_ne hne] at hbt; simp at hbt
        have hz' : ∀ k, c.wxx k b t = 0 := by
          intro k
          have := h.hist b t
          rw [hnb] at this
          exact (Finset.sum_eq_zero_iff.1 this) k (Finset.mem_univ k)
        refine List.any_eq_true.2 ⟨b, List.mem_finRange b, List.any_eq_true.2 ⟨t, List.mem_finRange t, ?_⟩⟩
        have hcell : ∀ k, (if (ratioMat (K := K) (c.wxx k) c.nbxx b t).isNan = true then XF.fin (1 / 7 : K) else
            ratioMat (c.wxx k) c.nbxx b t) = .fin (1 / 7) := by
          intro k
          rw [ratioMat_zero hnb (hz' k)]; rfl
        simp only [hcell]
        simp [List.finRange_succ, sumCells]
        norm_num
      rw [if_pos hsum]
      refine ⟨ratioMat_ne (hz b t), ratioMat_ne (hz b t), ratioMat_ne (hz b t), fun k => ?_⟩
      show (if (ratioMat (K := K) (c.wxx k) c.nbxx b t).isNan = true then XF.fin (1 / 7) else ratioMat (c.wxx k) c.nbxx b t) = _
      by_cases hx : c.nbxx b t = 0
      · rw [ratioMat_zero hx (hw0 k hx), if_pos hx]; rfl
      · rw [ratioMat_ne hx, if_neg hx]; rfl
    · rw [if_neg hany]
      refine ⟨ratioMat_ne (hz b t), ratioMat_ne (hz b t), ratioMat_ne (hz b t), fun k => ?_⟩
      have hx : c.nbxx b t ≠ 0 := by
        intro hx
        apply hany
        refine List.any_eq_true.2 ⟨k, List.mem_finRange k, ?_⟩
        by_contra hne
        have := anyNan_eq_false.1 (by simpa using hne) b t
        rw [ratioMat_zero hx (hw0 k hx)] at this
        simp at this
      rw [if_neg hx]
      exact ratioMat_ne hx

theorem finishStats_dist (s : CascStats K) {c : AggCounts} (h : CountsOk c) :
    (∀ b t, BranchDist (finishStats s c) b t ∧ HistDist (finishStats s c) b t) ∨ IsSample (finishStats s c) := by
  rcases finishStats_cases s h with ⟨hnb, hc⟩ | ⟨_, h2⟩
  · left
    intro b t
    obtain ⟨h1, h2, h3, h4⟩ := hc b t
    have hpos : (0 : K) < c.nb b t := by exact_mod_cast Nat.pos_of_ne_zero (hnb b t)
    constructor
    · refine ⟨_, _, _, h1, h2, h3, by positivity, by positivity, by positivity, ?_⟩
      rw [← add_div, ← add_div, div_eq_one_iff_eq hpos.ne']
      exact_mod_cast h.sum b t
    · refine ⟨_, h4, fun k => ?_, ?_⟩
      · split <;> positivity
      · by_cases hx : c.nbxx b t = 0
        · simp [hx]
        · simp only [hx, if_false]
          rw [← Finset.sum_div, div_eq_one_iff_eq (by exact_mod_cast hx), ← h.hist b t]
          push_cast; rfl
  · exact .inr h2

/-! ### sample data -/

theorem fin2_cases (b : Fin 2) : b = 0 ∨ b = 1 := by omega
theorem fin4_cases (t : Fin 4) : t = 0 ∨ t = 1 ∨ t = 2 ∨ t = 3 := by omega
theorem fin7_cases (k : Fin 7) : k = 0 ∨ k = 1 ∨ k = 2 ∨ k = 3 ∨ k = 4 ∨ k = 5 ∨ k = 6 := by omega

theorem sample_branch (b : Fin 2) (t : Fin 4) : (0 : K) ≤ sampleP01 b t ∧ (0 : K) ≤ sampleP10 b t ∧ (0 : K) ≤ samplePxx b t ∧
    |(sampleP01 b t + sampleP10 b t + samplePxx b t : K) - 1| ≤ 1 / 10 ^ 14 := by
  rw [abs_le]
  rcases fin2_cases b with rfl | rfl <;> rcases fin4_cases t with rfl | rfl | rfl | rfl <;>
    simp [sampleP01, sampleP10, samplePxx] <;> norm_num

theorem sample_hist (b : Fin 2) (t : Fin 4) : (∀ k, (0 : K) ≤ sampleWxx k b t) ∧ |(∑ k, sampleWxx k b t : K) - 1| ≤ 1 / 10 ^ 14 := by
  constructor
  · intro k
    rcases fin7_cases k with rfl | rfl | rfl | rfl | rfl | rfl | rfl <;> rcases fin2_cases b with rfl | rfl <;>
      rcases fin4_cases t with rfl | rfl | rfl | rfl <;> simp [sampleWxx] <;> norm_num
  · rw [abs_le, Fin.sum_univ_seven]
    rcases fin2_cases b with rfl | rfl <;> rcases fin4_cases t with rfl | rfl | rfl | rfl <;> simp [sampleWxx] <;> norm_num

/-! ### the whole function -/

theorem aggregate_inv [FloorRing K] {data : Series (XF K)} {p : K} {s : CascStats K} {vdn : Series (XF K)}
    (h : aggregatePrecipitation data p = .ok (s, vdn)) :
    (∀ r ∈ data, r.2.NanOrFin) ∧ vdn = pairSums data ∧ ∃ mv types, npPercentile (wetValues vdn.values) p = .ok mv ∧
      aggBoxTypes none vdn.values = .ok types ∧
      s = finishStats { CascStats.init with percentile := p, threshold := [.fin mv] } (aggCount mv (valuePairs data.values) types {}) := by
  unfold aggregatePrecipitation at h
  simp only [bind, Except.bind] at h
  split at h
  · cases h
  rename_i hany
  have hany : (data.any fun r => ! decide r.2.NanOrFin) = false := by
    by_contra hne
    have : (data.any fun r => ! decide r.2.NanOrFin) = true := by simpa using hne
    rw [this] at hany
    simp at hany
  have hnf : ∀ r ∈ data, r.2.NanOrFin := by
    rw [List.any_eq_false] at hany
    intro r hr
    simpa using hany r hr
  cases h1 : npPercentile (wetValues (pairSums data).values) p with
  | error e => rw [h1] at h; cases h
  | ok mv =>
    rw [h1] at h
    simp only at h
    cases h2 : aggBoxTypes none (pairSums data).values with
    | error e => rw [h2] at h; cases h
    | ok types =>
      rw [h2] at h
      simp only at h
      cases h
      exact ⟨hnf, rfl, mv, types, h1, h2, rfl⟩

end Melodist
