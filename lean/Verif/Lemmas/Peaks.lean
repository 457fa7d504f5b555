import Verif.Spec.Peaks
import Verif.Props.WetCount
import Mathlib.Analysis.MeanInequalitiesPow

/-!
# Helper lemmas: moments of the amounts of the cascade
-/

set_option linter.unusedSectionVars false

namespace Melodist
open Spec MeasureTheory ProbabilityTheory

noncomputable section

theorem box_moment {q : SplitLaw} {y : ℝ} (hy : 0 ≤ y) {r : Nat} (hr : r ≠ 0) :
    ∑ x ∈ boxOutcomes y, splitProbProper q y x.1 x.2 * x.1 ^ r = q.firstMoment r * y ^ r ∧
    ∑ x ∈ boxOutcomes y, splitProbProper q y x.1 x.2 * x.2 ^ r = q.secondMoment r * y ^ r := by
  rcases hy.eq_or_lt with h | h
  · subst h
    unfold boxOutcomes
    rw [if_pos (le_refl _), Finset.sum_singleton, Finset.sum_singleton]
    simp [zero_pow hr]
  · rw [box_expect q h fun x => x.1 ^ r, box_expect q h fun x => x.2 ^ r]
    unfold SplitLaw.firstMoment SplitLaw.secondMoment
    simp only [zero_pow hr, mul_pow, ← mul_assoc, ← Finset.sum_mul]
    constructor <;> ring

section level
variable {q : Fin 2 → Fin 4 → SplitLaw} {thr : XF ℝ}

theorem level_moment (hq : ∀ b t, (q b t).Proper) (start : Option ℝ) {p : List ℝ} (hp : ∀ x ∈ p, 0 ≤ x) {j : Nat} (hj : j < p.length) {r : Nat} (hr : r ≠ 0) :
    ∑ c ∈ levelOutcomes p, levelProb q thr start p c * c.getD (2 * j) 0 ^ r = (lawOf q thr p j).firstMoment r * p.getD j 0 ^ r ∧
    ∑ c ∈ levelOutcomes p, levelProb q thr start p c * c.getD (2 * j + 1) 0 ^ r = (lawOf q thr p j).secondMoment r * p.getD j 0 ^ r := by
  have hy : 0 ≤ p.getD j 0 := by rw [List.getD_eq_getElem _ _ hj]; exact hp _ (List.getElem_mem hj)
  obtain ⟨b1, b2⟩ := box_moment (q := lawOf q thr p j) hy hr
  refine ⟨?_, ?_⟩
  · rw [level_sum, ← b1]
    have := level_box (thr := thr) hq start p ⟨j, hj⟩ fun x => x.1 ^ r
    simp only at this
    rw [← this]
    exact Finset.sum_congr rfl fun x _ => by rw [(flat_getD x ⟨j, hj⟩).1]
  · rw [level_sum, ← b2]
    have := level_box (thr := thr) hq start p ⟨j, hj⟩ fun x => x.2 ^ r
    simp only at this
    rw [← this]
    exact Finset.sum_congr rfl fun x _ => by rw [(flat_getD x ⟨j, hj⟩).2]

end level

section levels
variable {q : Nat → Fin 2 → Fin 4 → SplitLaw} {thr : Nat → XF ℝ}

/-- expected sum of the powers of the boxes of a day -/
theorem levels_powers (hq : ∀ l b t, (q l b t).Proper) {r : Nat} (hr : r ≠ 0) {a b : ℝ} (ha : 0 ≤ a) (hb : 0 ≤ b)
    (hs : ∀ l c t, a ≤ (q l c t).firstMoment r + (q l c t).secondMoment r ∧ (q l c t).firstMoment r + (q l c t).secondMoment r ≤ b)
    {p : List ℝ} (hp : ∀ x ∈ p, 0 ≤ x) {k i L : Nat} (hk : k < p.length) (hi : i < L) :
    a ^ (i + 1) * p.getD k 0 ^ r ≤
      ∑ ls ∈ outcomes L p, levelsProb q thr 0 none p ls * ∑ j ∈ Finset.range (2 ^ (i + 1)), (ls.getD i []).getD (2 ^ (i + 1) * k + j) 0 ^ r ∧
    ∑ ls ∈ outcomes L p, levelsProb q thr 0 none p ls * ∑ j ∈ Finset.range (2 ^ (i + 1)), (ls.getD i []).getD (2 ^ (i + 1) * k + j) 0 ^ r ≤
      b ^ (i + 1) * p.getD k 0 ^ r := by
  have h := levels_fun (thr := thr) hq ha hb (n := p.length) (D := i + 1) (fun d c => ∑ j ∈ Finset.range (2 ^ d), c.getD (2 ^ d * k + j) 0 ^ r) (by
    intro d l start p' hd hp' hlen
    have hin : ∀ j < 2 ^ d, 2 ^ d * k + j < p'.length := by
      intro j hj
      rw [hlen]
      have : k + 1 ≤ p.length := hk
      nlinarith [Nat.pow_pos (n := d) (show 0 < 2 by norm_num)]
    have e : ∑ c ∈ levelOutcomes p', levelProb (q l) (thr l) start p' c * ∑ j ∈ Finset.range (2 ^ (d + 1)), c.getD (2 ^ (d + 1) * k + j) 0 ^ r =
        ∑ j ∈ Finset.range (2 ^ d), ((lawOf (q l) (thr l) p' (2 ^ d * k + j)).firstMoment r + (lawOf (q l) (thr l) p' (2 ^ d * k + j)).secondMoment r) *
          p'.getD (2 ^ d * k + j) 0 ^ r := by
      have e1 : ∀ c : List ℝ, ∑ j ∈ Finset.range (2 ^ (d + 1)), c.getD (2 ^ (d + 1) * k + j) 0 ^ r =
          ∑ j ∈ Finset.range (2 ^ d), (c.getD (2 * (2 ^ d * k + j)) 0 ^ r + c.getD (2 * (2 ^ d * k + j) + 1) 0 ^ r) := by
        intro c
        rw [pow_succ, mul_comm (2 ^ d) 2, sum_pairs]
        refine Finset.sum_congr rfl fun j _ => ?_
        rw [show 2 * 2 ^ d * k + 2 * j = 2 * (2 ^ d * k + j) by ring, show 2 * 2 ^ d * k + (2 * j + 1) = 2 * (2 ^ d * k + j) + 1 by ring]
      simp only [e1]
      simp only [Finset.mul_sum]
      rw [Finset.sum_comm]
      refine Finset.sum_congr rfl fun j hj => ?_
      obtain ⟨w1, w2⟩ := level_moment (thr := thr l) (hq l) start hp' (hin j (Finset.mem_range.1 hj)) hr
      rw [show (∑ c ∈ levelOutcomes p', levelProb (q l) (thr l) start p' c * (c.getD (2 * (2 ^ d * k + j)) 0 ^ r + c.getD (2 * (2 ^ d * k + j) + 1) 0 ^ r)) =
        _ + _ from (Finset.sum_congr rfl fun c _ => mul_add _ _ _).trans Finset.sum_add_distrib, w1, w2]
      ring
    have n : ∀ j, 0 ≤ p'.getD j 0 ^ r := fun j => pow_nonneg (getD_nonneg hp' j) r
    rw [e, Finset.mul_sum, Finset.mul_sum]
    exact ⟨Finset.sum_le_sum fun j _ => mul_le_mul_of_nonneg_right (hs _ _ _).1 (n _),
      Finset.sum_le_sum fun j _ => mul_le_mul_of_nonneg_right (hs _ _ _).2 (n _)⟩) i L 0 0 none p hi (by omega) hp (by simp)
  simpa using h

/-- expected power of a box -/
theorem levels_moment (hq : ∀ l b t, (q l b t).Proper) {r : Nat} (hr : r ≠ 0) {α β : ℝ} (hα : 0 ≤ α) (hβ : 0 ≤ β)
    (hs : ∀ l c t, α ≤ (q l c t).firstMoment r ∧ (q l c t).firstMoment r ≤ β ∧ α ≤ (q l c t).secondMoment r ∧ (q l c t).secondMoment r ≤ β)
    {p : List ℝ} (hp : ∀ x ∈ p, 0 ≤ x) {j i L : Nat} (hi : i < L) (hj : j < p.length * 2 ^ (i + 1)) :
    α ^ (i + 1) * p.getD (j / 2 ^ (i + 1)) 0 ^ r ≤ ∑ ls ∈ outcomes L p, levelsProb q thr 0 none p ls * (ls.getD i []).getD j 0 ^ r ∧
    ∑ ls ∈ outcomes L p, levelsProb q thr 0 none p ls * (ls.getD i []).getD j 0 ^ r ≤ β ^ (i + 1) * p.getD (j / 2 ^ (i + 1)) 0 ^ r := by
  have h := levels_fun (thr := thr) hq hα hβ (n := p.length) (D := i + 1)
    (fun d c => c.getD (j / 2 ^ (i + 1 - d)) 0 ^ r) (by
    intro d l start p' hd hp' hlen
    have hdiv : j / 2 ^ (i + 1 - d) = j / 2 ^ (i + 1 - (d + 1)) / 2 := by
      rw [show i + 1 - d = i + 1 - (d + 1) + 1 by omega, pow_succ, Nat.div_div_eq_div_mul]
    have hin : j / 2 ^ (i + 1 - d) < p'.length := by
      rw [hlen, Nat.div_lt_iff_lt_mul (by positivity), mul_assoc, ← pow_add, show d + (i + 1 - d) = i + 1 by omega]
      exact hj
    rw [hdiv] at hin ⊢
    have n : ∀ j, 0 ≤ p'.getD j 0 ^ r := fun j => pow_nonneg (getD_nonneg hp' j) r
    generalize j / 2 ^ (i + 1 - (d + 1)) = m at *
    obtain ⟨w1, w2⟩ := level_moment (thr := thr l) (hq l) start hp' hin hr
    rcases Nat.mod_two_eq_zero_or_one m with h | h
    · have e : m = 2 * (m / 2) := by omega
      rw [← e] at w1
      rw [w1]
      exact ⟨mul_le_mul_of_nonneg_right (hs _ _ _).1 (n _), mul_le_mul_of_nonneg_right (hs _ _ _).2.1 (n _)⟩
    · have e : m = 2 * (m / 2) + 1 := by omega
      rw [← e] at w2
      rw [w2]
      exact ⟨mul_le_mul_of_nonneg_right (hs _ _ _).2.2.1 (n _), mul_le_mul_of_nonneg_right (hs _ _ _).2.2.2 (n _)⟩) i L 0 0 none p hi (by omega) hp (by simp)
  simpa using h

end levels

/-- the powers of the hours of a day from those of its boxes -/
theorem hour_powers {c : List ℝ} (hc : ∀ x ∈ c, 0 ≤ x) (i r : Nat) :
    ∑ k ∈ Finset.range 24, hourSum c i k ^ r ≤ 3 / 4 * (4 / 3) ^ r * ∑ j ∈ Finset.range 32, c.getD (32 * i + j) 0 ^ r := by
  have n := getD_nonneg hc
  have one : ∀ k, hourSum c i k ^ r ≤ (4 / 3) ^ r * ∑ m ∈ Finset.range 4, 1 / 4 * c.getD ((4 * (24 * i + k) + m) / 3) 0 ^ r := by
    intro k
    have e : hourSum c i k = 4 / 3 * ∑ m ∈ Finset.range 4, 1 / 4 * c.getD ((4 * (24 * i + k) + m) / 3) 0 := by
      unfold hourSum
      rw [Finset.mul_sum]
      exact Finset.sum_congr rfl fun m _ => by ring
    rw [e, mul_pow]
    exact mul_le_mul_of_nonneg_left (Real.pow_arith_mean_le_arith_mean_pow _ (fun _ => 1 / 4) _ (fun _ _ => by norm_num) (by norm_num) (fun m _ => n _) r) (by positivity)
  have four : ∀ (N : Nat) (f : Nat → ℝ), ∑ k ∈ Finset.range N, ∑ m ∈ Finset.range 4, f (4 * k + m) = ∑ t ∈ Finset.range (4 * N), f t := by
    intro N f
    induction N with
    | zero => simp
    | succ N ih =>
      rw [Finset.sum_range_succ, ih, show 4 * (N + 1) = 4 * N + 1 + 1 + 1 + 1 by ring]
      simp only [Finset.sum_range_succ, Finset.sum_range_zero]
      ring_nf
  have three : ∀ (N : Nat) (f : Nat → ℝ), ∑ t ∈ Finset.range (3 * N), f (t / 3) = 3 * ∑ j ∈ Finset.range N, f j := by
    intro N f
    induction N with
    | zero => simp
    | succ N ih =>
      rw [show 3 * (N + 1) = 3 * N + 1 + 1 + 1 by ring, Finset.sum_range_succ, Finset.sum_range_succ, Finset.sum_range_succ, ih, Finset.sum_range_succ,
        show 3 * N / 3 = N by omega, show (3 * N + 1) / 3 = N by omega, show (3 * N + 1 + 1) / 3 = N by omega]
      ring
  refine (Finset.sum_le_sum fun k _ => one k).trans (le_of_eq ?_)
  rw [← Finset.mul_sum]
  have e1 : ∀ k, ∑ m ∈ Finset.range 4, 1 / 4 * c.getD ((4 * (24 * i + k) + m) / 3) 0 ^ r =
      ∑ m ∈ Finset.range 4, (fun t => 1 / 4 * c.getD (32 * i + t / 3) 0 ^ r) (4 * k + m) := by
    intro k
    refine Finset.sum_congr rfl fun m _ => ?_
    rw [show (4 * (24 * i + k) + m) / 3 = 32 * i + (4 * k + m) / 3 by omega]
  rw [Finset.sum_congr rfl fun k _ => e1 k, four 24 fun t => 1 / 4 * c.getD (32 * i + t / 3) 0 ^ r, show 4 * 24 = 3 * 32 by norm_num, three 32 fun t => 1 / 4 * c.getD (32 * i + t) 0 ^ r, ← Finset.mul_sum]
  ring

theorem hourSum_nonneg {c : List ℝ} (hc : ∀ x ∈ c, 0 ≤ x) (i k : Nat) : 0 ≤ hourSum c i k :=
  Finset.sum_nonneg fun _ _ => div_nonneg (getD_nonneg hc _) (by norm_num)

/-- a number of `N` numbers that are not negative reaches `u` only if the sum of the powers reaches the power of `u` -/
theorem reach_powers {N r : Nat} {f : Nat → ℝ} (hf : ∀ j < N, 0 ≤ f j) {u : ℝ} (hu : 0 < u) {A : Prop} [Decidable A] (hA : A → ∃ j < N, u ≤ f j) :
    (if A then (1 : ℝ) else 0) ≤ (∑ j ∈ Finset.range N, f j ^ r) / u ^ r := by
  have h0 : ∀ j ∈ Finset.range N, 0 ≤ f j ^ r := fun j hj => pow_nonneg (hf j (Finset.mem_range.1 hj)) r
  split_ifs with h
  · obtain ⟨j, hj, h⟩ := hA h
    rw [le_div_iff₀ (by positivity), one_mul]
    exact (pow_le_pow_left₀ hu.le h r).trans (Finset.single_le_sum h0 (Finset.mem_range.2 hj))
  · exact div_nonneg (Finset.sum_nonneg h0) (by positivity)

end

end Melodist
