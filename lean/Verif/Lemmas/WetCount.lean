import Verif.Spec.WetCount
import Verif.Props.CascadeMean

/-!
# Helper lemmas: expectations over the levels of the cascade for arbitrary functions of a level
-/

set_option linter.unusedSectionVars false

namespace Melodist
open Spec MeasureTheory

noncomputable section

theorem wetMark_zero : wetMark 0 = 0 := by simp [wetMark]

theorem wetMark_pos {x : ℝ} (h : 0 < x) : wetMark x = 1 := by simp [wetMark, h]

theorem wetMark_nonneg (x : ℝ) : 0 ≤ wetMark x := by unfold wetMark; split_ifs <;> norm_num

theorem wetMark_le_one (x : ℝ) : wetMark x ≤ 1 := by unfold wetMark; split_ifs <;> norm_num

/-- the probability of an event as the mean of its indicator -/
theorem prob_of_mark {Ω : Type} [MeasurableSpace Ω] {P : Measure Ω} {A : Ω → Prop} [DecidablePred A] (h : Integrable (fun ω => if A ω then (1 : ℝ) else 0) P) :
    P.real {ω | A ω} = ∫ ω, (if A ω then (1 : ℝ) else 0) ∂P := by
  have hm : NullMeasurableSet {ω | A ω} P := by
    have := h.aestronglyMeasurable.aemeasurable.nullMeasurableSet_preimage (measurableSet_singleton (1 : ℝ))
    refine this.congr (Filter.Eventually.of_forall fun ω => ?_)
    apply propext
    show (if A ω then (1 : ℝ) else 0) = 1 ↔ A ω
    split_ifs with h <;> simp [h]
  have e : (fun ω => if A ω then (1 : ℝ) else 0) = Set.indicator {ω | A ω} fun _ => 1 := by
    funext ω
    simp [Set.indicator]
  rw [e, integral_indicator₀ hm]
  simp

/-! ### one box -/

theorem box_wet {q : SplitLaw} (hq : q.Proper) {y : ℝ} (hy : 0 ≤ y) :
    ∑ x ∈ boxOutcomes y, splitProbProper q y x.1 x.2 * wetMark x.1 = (1 - q.p01) * wetMark y ∧
    ∑ x ∈ boxOutcomes y, splitProbProper q y x.1 x.2 * wetMark x.2 = (1 - q.p10) * wetMark y ∧
    ∑ x ∈ boxOutcomes y, splitProbProper q y x.1 x.2 * (wetMark x.1 * wetMark x.2) = q.bothWet * wetMark y := by
  rcases hy.eq_or_lt with h | h
  · subst h
    unfold boxOutcomes
    rw [if_pos (le_refl _)]
    simp [wetMark_zero]
  · have c1 : ∀ c, wetMark (centre c * y) = 1 := fun c => wetMark_pos (mul_pos (centre_pos c).1 h)
    have c2 : ∀ c, wetMark ((1 - centre c) * y) = 1 := fun c => wetMark_pos (mul_pos (sub_pos.2 (centre_pos c).2) h)
    refine ⟨?_, ?_, ?_⟩
    · rw [box_expect q h fun x => wetMark x.1]
      simp only [c1, wetMark_zero, wetMark_pos h, mul_one, hq.2.2]
      ring
    · rw [box_expect q h fun x => wetMark x.2]
      simp only [c2, wetMark_zero, wetMark_pos h, mul_one, hq.2.2]
      ring
    · rw [box_expect q h fun x => wetMark x.1 * wetMark x.2]
      simp only [c1, c2, wetMark_zero, wetMark_pos h, mul_one, mul_zero, zero_mul, hq.2.2]
      unfold SplitLaw.bothWet
      ring

section level
variable {q : Fin 2 → Fin 4 → SplitLaw} {thr : XF ℝ}

theorem level_wet (hq : ∀ b t, (q b t).Proper) (start : Option ℝ) {p : List ℝ} (hp : ∀ x ∈ p, 0 ≤ x) {j : Nat} (hj : j < p.length) :
    ∑ c ∈ levelOutcomes p, levelProb q thr start p c * wetMark (c.getD (2 * j) 0) = (1 - (lawOf q thr p j).p01) * wetMark (p.getD j 0) ∧
    ∑ c ∈ levelOutcomes p, levelProb q thr start p c * wetMark (c.getD (2 * j + 1) 0) = (1 - (lawOf q thr p j).p10) * wetMark (p.getD j 0) ∧
    ∑ c ∈ levelOutcomes p, levelProb q thr start p c * (wetMark (c.getD (2 * j) 0) * wetMark (c.getD (2 * j + 1) 0)) =
      (lawOf q thr p j).bothWet * wetMark (p.getD j 0) := by
  have hy : 0 ≤ p.getD j 0 := by rw [List.getD_eq_getElem _ _ hj]; exact hp _ (List.getElem_mem hj)
  obtain ⟨b1, b2, b3⟩ := box_wet (q := lawOf q thr p j) (hq _ _) hy
  refine ⟨?_, ?_, ?_⟩
  · rw [level_sum, ← b1]
    have := level_box (thr := thr) hq start p ⟨j, hj⟩ fun x => wetMark x.1
    simp only at this
    rw [← this]
    exact Finset.sum_congr rfl fun x _ => by rw [(flat_getD x ⟨j, hj⟩).1]
  · rw [level_sum, ← b2]
    have := level_box (thr := thr) hq start p ⟨j, hj⟩ fun x => wetMark x.2
    simp only at this
    rw [← this]
    exact Finset.sum_congr rfl fun x _ => by rw [(flat_getD x ⟨j, hj⟩).2]
  · rw [level_sum, ← b3]
    have := level_box (thr := thr) hq start p ⟨j, hj⟩ fun x => wetMark x.1 * wetMark x.2
    simp only at this
    rw [← this]
    exact Finset.sum_congr rfl fun x _ => by rw [(flat_getD x ⟨j, hj⟩).1, (flat_getD x ⟨j, hj⟩).2]

end level

/-! ### all levels -/

section levels
variable {q : Nat → Fin 2 → Fin 4 → SplitLaw} {thr : Nat → XF ℝ}

/-- the expectation of a quantity `F` of a level (depending on the number of the level), from bounds for one level -/
theorem levels_fun (hq : ∀ l b t, (q l b t).Proper) {α β : ℝ} (hα : 0 ≤ α) (hβ : 0 ≤ β) {n D : Nat} (F : Nat → List ℝ → ℝ)
    (one : ∀ (d l : Nat) (start : Option ℝ) (p : List ℝ), d < D → (∀ x ∈ p, 0 ≤ x) → p.length = n * 2 ^ d →
      α * F d p ≤ ∑ c ∈ levelOutcomes p, levelProb (q l) (thr l) start p c * F (d + 1) c ∧
      ∑ c ∈ levelOutcomes p, levelProb (q l) (thr l) start p c * F (d + 1) c ≤ β * F d p) :
    ∀ (i L l d : Nat) (start : Option ℝ) (p : List ℝ), i < L → d + i < D → (∀ x ∈ p, 0 ≤ x) → p.length = n * 2 ^ d →
      α ^ (i + 1) * F d p ≤ ∑ ls ∈ outcomes L p, levelsProb q thr l start p ls * F (d + i + 1) (ls.getD i []) ∧
      ∑ ls ∈ outcomes L p, levelsProb q thr l start p ls * F (d + i + 1) (ls.getD i []) ≤ β ^ (i + 1) * F d p := by
  intro i
  induction i with
  | zero =>
    intro L l d start p hL hD hp hlen
    obtain ⟨L, rfl⟩ : ∃ M, L = M + 1 := ⟨L - 1, by omega⟩
    rw [outcomes_sum]
    simp only [levelsProb, List.getD_cons_zero]
    have e : ∀ c, ∑ r ∈ outcomes L c, levelProb (q l) (thr l) start p c * levelsProb q thr (l + 1) (lastWeight p c start p.length) c r * F (d + 0 + 1) c =
        levelProb (q l) (thr l) start p c * F (d + 1) c := by
      intro c
      rw [← Finset.sum_mul, ← Finset.mul_sum, levels_one hq, mul_one, Nat.add_zero]
    simp only [e, zero_add, pow_one]
    exact one d l start p (by omega) hp hlen
  | succ i ih =>
    intro L l d start p hL hD hp hlen
    obtain ⟨L, rfl⟩ : ∃ M, L = M + 1 := ⟨L - 1, by omega⟩
    rw [outcomes_sum]
    simp only [levelsProb, List.getD_cons_succ]
    have e : ∀ c, ∑ r ∈ outcomes L c, levelProb (q l) (thr l) start p c * levelsProb q thr (l + 1) (lastWeight p c start p.length) c r *
          F (d + (i + 1) + 1) (r.getD i []) =
        levelProb (q l) (thr l) start p c * ∑ r ∈ outcomes L c, levelsProb q thr (l + 1) (lastWeight p c start p.length) c r * F (d + 1 + i + 1) (r.getD i []) := by
      intro c
      rw [Finset.mul_sum, show d + (i + 1) + 1 = d + 1 + i + 1 by ring]
      exact Finset.sum_congr rfl fun r _ => by ring
    simp only [e]
    obtain ⟨h1, h2⟩ := one d l start p (by omega) hp hlen
    have step : ∀ c ∈ levelOutcomes p, _ := fun c hc => ih L (l + 1) (d + 1) (lastWeight p c start p.length) c (by omega) (by omega) (levelOutcomes_nonneg hc)
      (by rw [levelOutcomes_length hc, hlen]; ring)
    constructor
    · calc α ^ (i + 1 + 1) * F d p = α ^ (i + 1) * (α * F d p) := by ring
        _ ≤ α ^ (i + 1) * ∑ c ∈ levelOutcomes p, levelProb (q l) (thr l) start p c * F (d + 1) c := mul_le_mul_of_nonneg_left h1 (by positivity)
        _ = ∑ c ∈ levelOutcomes p, levelProb (q l) (thr l) start p c * (α ^ (i + 1) * F (d + 1) c) := by
          rw [Finset.mul_sum]; exact Finset.sum_congr rfl fun c _ => by ring
        _ ≤ _ := Finset.sum_le_sum fun c hc => mul_le_mul_of_nonneg_left (step c hc).1 (levelProb_nonneg (hq l) _ _ _)
    · calc _ ≤ ∑ c ∈ levelOutcomes p, levelProb (q l) (thr l) start p c * (β ^ (i + 1) * F (d + 1) c) :=
          Finset.sum_le_sum fun c hc => mul_le_mul_of_nonneg_left (step c hc).2 (levelProb_nonneg (hq l) _ _ _)
        _ = β ^ (i + 1) * ∑ c ∈ levelOutcomes p, levelProb (q l) (thr l) start p c * F (d + 1) c := by
          rw [Finset.mul_sum]; exact Finset.sum_congr rfl fun c _ => by ring
        _ ≤ β ^ (i + 1) * (β * F d p) := mul_le_mul_of_nonneg_left h2 (by positivity)
        _ = _ := by ring

/-- given the levels before, the expectation of a quantity `G` of a level -/
theorem levels_past_fun (hq : ∀ l b t, (q l b t).Proper) {j : Nat} (G : List ℝ → ℝ) (H : Nat → List ℝ → ℝ)
    (one : ∀ (l : Nat) (start : Option ℝ) (p : List ℝ), (∀ x ∈ p, 0 ≤ x) → j < p.length →
      ∑ c ∈ levelOutcomes p, levelProb (q l) (thr l) start p c * G c = H l p) :
    ∀ (i L l : Nat) (start : Option ℝ) (p : List ℝ) (past : List (List ℝ)), i < L → past.length = i → (∀ x ∈ p, 0 ≤ x) →
      j < ((p :: past).getD i []).length →
      ∑ ls ∈ outcomes L p, (if ls.take i = past then levelsProb q thr l start p ls * G (ls.getD i []) else 0) =
        H (l + i) ((p :: past).getD i []) * ∑ ls ∈ outcomes L p, (if ls.take i = past then levelsProb q thr l start p ls else 0) := by
  intro i
  induction i with
  | zero =>
    intro L l start p past hL hp0 hp hj
    obtain ⟨L, rfl⟩ : ∃ M, L = M + 1 := ⟨L - 1, by omega⟩
    have : past = [] := List.length_eq_zero_iff.1 hp0
    subst this
    simp only [List.take_zero, if_true, levels_one hq, mul_one, Nat.add_zero, List.getD_cons_zero] at hj ⊢
    rw [outcomes_sum]
    simp only [levelsProb, List.getD_cons_zero]
    have e1 : ∀ c, ∑ r ∈ outcomes L c, levelProb (q l) (thr l) start p c * levelsProb q thr (l + 1) (lastWeight p c start p.length) c r * G c =
        levelProb (q l) (thr l) start p c * G c := by
      intro c
      rw [← Finset.sum_mul, ← Finset.mul_sum, levels_one hq, mul_one]
    simp only [e1]
    exact one l start p hp hj
  | succ i ih =>
    intro L l start p past hL hp0 hp hj
    obtain ⟨L, rfl⟩ : ∃ M, L = M + 1 := ⟨L - 1, by omega⟩
    obtain ⟨c0, past, rfl⟩ : ∃ c r, past = c :: r := by
      cases past with
      | nil => cases hp0
      | cons c r => exact ⟨c, r, rfl⟩
    have hp0 : past.length = i := by simpa using hp0
    rw [outcomes_sum, outcomes_sum]
    simp only [levelsProb, List.getD_cons_succ, List.take_succ_cons] at hj ⊢
    have split : ∀ (D : ∀ (c : List ℝ) (r : List (List ℝ)), Decidable (c :: r.take i = c0 :: past)) (g : List ℝ → List (List ℝ) → ℝ),
        ∑ c ∈ levelOutcomes p, ∑ r ∈ outcomes L c, (if c :: r.take i = c0 :: past then g c r else 0) =
          if c0 ∈ levelOutcomes p then ∑ r ∈ outcomes L c0, (if r.take i = past then g c0 r else 0) else 0 := by
      intro D g
      have h1 : ∀ c ∈ levelOutcomes p, ∑ r ∈ outcomes L c, (if c :: r.take i = c0 :: past then g c r else 0) =
          if c = c0 then ∑ r ∈ outcomes L c0, (if r.take i = past then g c0 r else 0) else 0 := by
        intro c _
        split_ifs with hc
        · subst hc
          exact Finset.sum_congr rfl fun r _ => by simp
        · exact Finset.sum_eq_zero fun r _ => if_neg fun h => hc (List.cons.inj h).1
      rw [Finset.sum_congr rfl h1, Finset.sum_ite_eq']
    refine (split _ fun c r => levelProb (q l) (thr l) start p c * levelsProb q thr (l + 1) (lastWeight p c start p.length) c r * G (r.getD i [])).trans
      (Eq.trans ?_ (congrArg (fun z => H (l + (i + 1)) ((c0 :: past).getD i []) * z)
        (split _ fun c r => levelProb (q l) (thr l) start p c * levelsProb q thr (l + 1) (lastWeight p c start p.length) c r).symm))
    split_ifs with hc
    · have h := ih L (l + 1) (lastWeight p c0 start p.length) c0 past (by omega) hp0 (levelOutcomes_nonneg hc) hj
      rw [show l + 1 + i = l + (i + 1) by ring] at h
      have pull : ∀ f : List (List ℝ) → ℝ, ∑ r ∈ outcomes L c0, (if r.take i = past then levelProb (q l) (thr l) start p c0 * f r else 0) =
          levelProb (q l) (thr l) start p c0 * ∑ r ∈ outcomes L c0, (if r.take i = past then f r else 0) := by
        intro f
        rw [Finset.mul_sum]
        exact Finset.sum_congr rfl fun r _ => by split_ifs <;> ring
      simp only [mul_assoc (levelProb (q l) (thr l) start p c0)]
      rw [pull, pull, h]
      ring
    · rw [mul_zero]

theorem levelsProb_nonneg (hq : ∀ l b t, (q l b t).Proper) : ∀ (ls : List (List ℝ)) (l : Nat) (start : Option ℝ) (p : List ℝ), 0 ≤ levelsProb q thr l start p ls := by
  intro ls
  induction ls with
  | nil => intro l start p; simp [levelsProb]
  | cons c ls ih => intro l start p; exact mul_nonneg (levelProb_nonneg (hq l) _ _ _) (ih _ _ _)

theorem sum_pairs (N : Nat) (f : Nat → ℝ) : ∑ j ∈ Finset.range (2 * N), f j = ∑ j ∈ Finset.range N, (f (2 * j) + f (2 * j + 1)) := by
  induction N with
  | zero => simp
  | succ N ih =>
    rw [show 2 * (N + 1) = 2 * N + 1 + 1 by ring, Finset.sum_range_succ, Finset.sum_range_succ, ih, Finset.sum_range_succ]
    ring

/-- expected number of wet boxes of a day -/
theorem levels_count (hq : ∀ l b t, (q l b t).Proper) {a b : ℝ} (ha : 0 ≤ a) (hb : 0 ≤ b)
    (hs : ∀ l c t, a ≤ 1 + (q l c t).bothWet ∧ 1 + (q l c t).bothWet ≤ b) {p : List ℝ} (hp : ∀ x ∈ p, 0 ≤ x) {k i L : Nat} (hk : k < p.length) (hi : i < L) :
    a ^ (i + 1) * wetMark (p.getD k 0) ≤
      ∑ ls ∈ outcomes L p, levelsProb q thr 0 none p ls * ∑ j ∈ Finset.range (2 ^ (i + 1)), wetMark ((ls.getD i []).getD (2 ^ (i + 1) * k + j) 0) ∧
    ∑ ls ∈ outcomes L p, levelsProb q thr 0 none p ls * ∑ j ∈ Finset.range (2 ^ (i + 1)), wetMark ((ls.getD i []).getD (2 ^ (i + 1) * k + j) 0) ≤
      b ^ (i + 1) * wetMark (p.getD k 0) := by
  have h := levels_fun (thr := thr) hq ha hb (n := p.length) (D := i + 1) (fun d c => ∑ j ∈ Finset.range (2 ^ d), wetMark (c.getD (2 ^ d * k + j) 0)) (by
    intro d l start p' hd hp' hlen
    have hin : ∀ j < 2 ^ d, 2 ^ d * k + j < p'.length := by
      intro j hj
      rw [hlen]
      have : k + 1 ≤ p.length := hk
      nlinarith [Nat.pow_pos (n := d) (show 0 < 2 by norm_num)]
    have e : ∑ c ∈ levelOutcomes p', levelProb (q l) (thr l) start p' c * ∑ j ∈ Finset.range (2 ^ (d + 1)), wetMark (c.getD (2 ^ (d + 1) * k + j) 0) =
        ∑ j ∈ Finset.range (2 ^ d), (1 + (lawOf (q l) (thr l) p' (2 ^ d * k + j)).bothWet) * wetMark (p'.getD (2 ^ d * k + j) 0) := by
      have e1 : ∀ c : List ℝ, ∑ j ∈ Finset.range (2 ^ (d + 1)), wetMark (c.getD (2 ^ (d + 1) * k + j) 0) =
          ∑ j ∈ Finset.range (2 ^ d), (wetMark (c.getD (2 * (2 ^ d * k + j)) 0) + wetMark (c.getD (2 * (2 ^ d * k + j) + 1) 0)) := by
        intro c
        rw [pow_succ, mul_comm (2 ^ d) 2, sum_pairs]
        refine Finset.sum_congr rfl fun j _ => ?_
        rw [show 2 * 2 ^ d * k + 2 * j = 2 * (2 ^ d * k + j) by ring, show 2 * 2 ^ d * k + (2 * j + 1) = 2 * (2 ^ d * k + j) + 1 by ring]
      simp only [e1]
      simp only [Finset.mul_sum]
      rw [Finset.sum_comm]
      refine Finset.sum_congr rfl fun j hj => ?_
      obtain ⟨w1, w2, _⟩ := level_wet (thr := thr l) (hq l) start hp' (hin j (Finset.mem_range.1 hj))
      rw [show (∑ c ∈ levelOutcomes p', levelProb (q l) (thr l) start p' c * (wetMark (c.getD (2 * (2 ^ d * k + j)) 0) + wetMark (c.getD (2 * (2 ^ d * k + j) + 1) 0))) =
        _ + _ from (Finset.sum_congr rfl fun c _ => mul_add _ _ _).trans Finset.sum_add_distrib, w1, w2]
      unfold SplitLaw.bothWet
      ring
    rw [e, Finset.mul_sum, Finset.mul_sum]
    exact ⟨Finset.sum_le_sum fun j _ => mul_le_mul_of_nonneg_right (hs _ _ _).1 (wetMark_nonneg _),
      Finset.sum_le_sum fun j _ => mul_le_mul_of_nonneg_right (hs _ _ _).2 (wetMark_nonneg _)⟩) i L 0 0 none p hi (by omega) hp (by simp)
  simpa using h

/-- probability that a box is wet -/
theorem levels_wet (hq : ∀ l b t, (q l b t).Proper) {α β : ℝ} (hα : 0 ≤ α) (hβ : 0 ≤ β)
    (hs : ∀ l c t, α ≤ 1 - (q l c t).p01 ∧ 1 - (q l c t).p01 ≤ β ∧ α ≤ 1 - (q l c t).p10 ∧ 1 - (q l c t).p10 ≤ β)
    {p : List ℝ} (hp : ∀ x ∈ p, 0 ≤ x) {j i L : Nat} (hi : i < L) (hj : j < p.length * 2 ^ (i + 1)) :
    α ^ (i + 1) * wetMark (p.getD (j / 2 ^ (i + 1)) 0) ≤ ∑ ls ∈ outcomes L p, levelsProb q thr 0 none p ls * wetMark ((ls.getD i []).getD j 0) ∧
    ∑ ls ∈ outcomes L p, levelsProb q thr 0 none p ls * wetMark ((ls.getD i []).getD j 0) ≤ β ^ (i + 1) * wetMark (p.getD (j / 2 ^ (i + 1)) 0) := by
  -- the ancestors of box `j`
  have h := levels_fun (thr := thr) hq hα hβ (n := p.length) (D := i + 1)
    (fun d c => wetMark (c.getD (j / 2 ^ (i + 1 - d)) 0)) (by
    intro d l start p' hd hp' hlen
    have hdiv : j / 2 ^ (i + 1 - d) = j / 2 ^ (i + 1 - (d + 1)) / 2 := by
      rw [show i + 1 - d = i + 1 - (d + 1) + 1 by omega, pow_succ, Nat.div_div_eq_div_mul]
    have hin : j / 2 ^ (i + 1 - d) < p'.length := by
      rw [hlen, Nat.div_lt_iff_lt_mul (by positivity), mul_assoc, ← pow_add, show d + (i + 1 - d) = i + 1 by omega]
      exact hj
    rw [hdiv] at hin ⊢
    set m := j / 2 ^ (i + 1 - (d + 1)) with hm
    obtain ⟨w1, w2, _⟩ := level_wet (thr := thr l) (hq l) start hp' hin
    rcases Nat.mod_two_eq_zero_or_one m with h | h
    · have e : m = 2 * (m / 2) := by omega
      rw [← e] at w1
      rw [w1]
      exact ⟨mul_le_mul_of_nonneg_right (hs _ _ _).1 (wetMark_nonneg _), mul_le_mul_of_nonneg_right (hs _ _ _).2.1 (wetMark_nonneg _)⟩
    · have e : m = 2 * (m / 2) + 1 := by omega
      rw [← e] at w2
      rw [w2]
      exact ⟨mul_le_mul_of_nonneg_right (hs _ _ _).2.2.1 (wetMark_nonneg _), mul_le_mul_of_nonneg_right (hs _ _ _).2.2.2 (wetMark_nonneg _)⟩) i L 0 0 none p hi (by omega) hp (by simp)
  simpa using h

end levels

/-! ### from boxes to hours -/

theorem outcomes_nonneg : ∀ (L : Nat) (p : List ℝ), ∀ ls ∈ outcomes L p, ∀ i, ∀ x ∈ ls.getD i [], 0 ≤ x := by
  classical
  intro L
  induction L with
  | zero => intro p ls h i x hx; rw [outcomes, Finset.mem_singleton] at h; subst h; simp at hx
  | succ L ih =>
    intro p ls h i x hx
    rw [outcomes, Finset.mem_biUnion] at h
    obtain ⟨c, hc, h⟩ := h
    obtain ⟨r, hr, rfl⟩ := Finset.mem_image.1 h
    cases i with
    | zero => exact levelOutcomes_nonneg hc x hx
    | succ i => exact ih c r hr i x hx

theorem getD_nonneg {c : List ℝ} (h : ∀ x ∈ c, 0 ≤ x) (j : Nat) : 0 ≤ c.getD j 0 := by
  by_cases hj : j < c.length
  · rw [List.getD_eq_getElem _ _ hj]; exact h _ (List.getElem_mem hj)
  · rw [List.getD_eq_default _ _ (by omega)]

theorem wetMark_cases (x : ℝ) : wetMark x = 0 ∨ wetMark x = 1 := by unfold wetMark; split_ifs <;> simp

/-- the mark of a sum of shares of two amounts -/
theorem wetMark_two {x y s : ℝ} (hx : 0 ≤ x) (hy : 0 ≤ y) {u w : ℝ} (hu : 0 < u) (hw : 0 < w) (hs : s = u * x + w * y) :
    wetMark s = max (wetMark x) (wetMark y) := by
  subst hs
  rcases hx.eq_or_lt with rfl | hx'
  · rcases hy.eq_or_lt with rfl | hy'
    · simp [wetMark_zero]
    · rw [wetMark_pos hy', wetMark_zero, wetMark_pos (by positivity)]; norm_num
  · rw [wetMark_pos hx', wetMark_pos (by positivity), max_eq_left (wetMark_le_one _)]

/-- the marks of three hours from the marks of their four boxes -/
theorem marks_three {a b c d : ℝ} (ha : a = 0 ∨ a = 1) (hb : b = 0 ∨ b = 1) (hc : c = 0 ∨ c = 1) (hd : d = 0 ∨ d = 1) :
    3 / 4 * (a + b + c + d) ≤ max a b + max b c + max c d ∧ max a b + max b c + max c d ≤ 2 * (a + b + c + d) := by
  rcases ha with rfl | rfl <;> rcases hb with rfl | rfl <;> rcases hc with rfl | rfl <;> rcases hd with rfl | rfl <;> norm_num

/-- the amount of an hour from the boxes of the last level -/
def hourSum (c : List ℝ) (i k : Nat) : ℝ := ∑ m ∈ Finset.range 4, c.getD ((4 * (24 * i + k) + m) / 3) 0 / 3

theorem hour_mark {c : List ℝ} (hc : ∀ x ∈ c, 0 ≤ x) (i g : Nat) :
    wetMark (hourSum c i (3 * g)) = max (wetMark (c.getD (32 * i + 4 * g) 0)) (wetMark (c.getD (32 * i + (4 * g + 1)) 0)) ∧
    wetMark (hourSum c i (3 * g + 1)) = max (wetMark (c.getD (32 * i + (4 * g + 1)) 0)) (wetMark (c.getD (32 * i + (4 * g + 2)) 0)) ∧
    wetMark (hourSum c i (3 * g + 2)) = max (wetMark (c.getD (32 * i + (4 * g + 2)) 0)) (wetMark (c.getD (32 * i + (4 * g + 3)) 0)) := by
  have n := getD_nonneg hc
  refine ⟨wetMark_two (n _) (n _) (u := 1) (w := 1 / 3) (by norm_num) (by norm_num) ?_,
    wetMark_two (n _) (n _) (u := 2 / 3) (w := 2 / 3) (by norm_num) (by norm_num) ?_,
    wetMark_two (n _) (n _) (u := 1 / 3) (w := 1) (by norm_num) (by norm_num) ?_⟩ <;>
  simp only [hourSum, Finset.sum_range_succ, Finset.sum_range_zero]
  · rw [show (4 * (24 * i + 3 * g) + 0) / 3 = 32 * i + 4 * g by omega, show (4 * (24 * i + 3 * g) + 1) / 3 = 32 * i + 4 * g by omega,
      show (4 * (24 * i + 3 * g) + 2) / 3 = 32 * i + 4 * g by omega, show (4 * (24 * i + 3 * g) + 3) / 3 = 32 * i + (4 * g + 1) by omega]
    ring
  · rw [show (4 * (24 * i + (3 * g + 1)) + 0) / 3 = 32 * i + (4 * g + 1) by omega, show (4 * (24 * i + (3 * g + 1)) + 1) / 3 = 32 * i + (4 * g + 1) by omega,
      show (4 * (24 * i + (3 * g + 1)) + 2) / 3 = 32 * i + (4 * g + 2) by omega, show (4 * (24 * i + (3 * g + 1)) + 3) / 3 = 32 * i + (4 * g + 2) by omega]
    ring
  · rw [show (4 * (24 * i + (3 * g + 2)) + 0) / 3 = 32 * i + (4 * g + 2) by omega, show (4 * (24 * i + (3 * g + 2)) + 1) / 3 = 32 * i + (4 * g + 3) by omega,
      show (4 * (24 * i + (3 * g + 2)) + 2) / 3 = 32 * i + (4 * g + 3) by omega, show (4 * (24 * i + (3 * g + 2)) + 3) / 3 = 32 * i + (4 * g + 3) by omega]
    ring

/-- the number of wet hours of a day against its number of wet boxes -/
theorem hours_boxes {c : List ℝ} (hc : ∀ x ∈ c, 0 ≤ x) (i : Nat) :
    3 / 4 * ∑ j ∈ Finset.range 32, wetMark (c.getD (32 * i + j) 0) ≤ ∑ k ∈ Finset.range 24, wetMark (hourSum c i k) ∧
    ∑ k ∈ Finset.range 24, wetMark (hourSum c i k) ≤ 2 * ∑ j ∈ Finset.range 32, wetMark (c.getD (32 * i + j) 0) ∧
    ∑ k ∈ Finset.range 24, wetMark (hourSum c i k) ≤ 24 := by
  have three : ∀ N, ∑ k ∈ Finset.range (3 * N), wetMark (hourSum c i k) =
      ∑ g ∈ Finset.range N, (wetMark (hourSum c i (3 * g)) + wetMark (hourSum c i (3 * g + 1)) + wetMark (hourSum c i (3 * g + 2))) := by
    intro N
    induction N with
    | zero => simp
    | succ N ih => rw [show 3 * (N + 1) = 3 * N + 1 + 1 + 1 by ring, Finset.sum_range_succ, Finset.sum_range_succ, Finset.sum_range_succ, ih, Finset.sum_range_succ]; ring
  have four : ∀ N, ∑ j ∈ Finset.range (4 * N), wetMark (c.getD (32 * i + j) 0) =
      ∑ g ∈ Finset.range N, (wetMark (c.getD (32 * i + 4 * g) 0) + wetMark (c.getD (32 * i + (4 * g + 1)) 0) + wetMark (c.getD (32 * i + (4 * g + 2)) 0) +
        wetMark (c.getD (32 * i + (4 * g + 3)) 0)) := by
    intro N
    induction N with
    | zero => simp
    | succ N ih =>
      rw [show 4 * (N + 1) = 4 * N + 1 + 1 + 1 + 1 by ring, Finset.sum_range_succ, Finset.sum_range_succ, Finset.sum_range_succ, Finset.sum_range_succ, ih, Finset.sum_range_succ]
      ring
  have h24 := three 8
  have h32 := four 8
  simp only [(hour_mark hc i _).1, (hour_mark hc i _).2.1, (hour_mark hc i _).2.2] at h24
  norm_num only at h24 h32
  have m := fun g => marks_three (wetMark_cases (c.getD (32 * i + 4 * g) 0)) (wetMark_cases (c.getD (32 * i + (4 * g + 1)) 0))
    (wetMark_cases (c.getD (32 * i + (4 * g + 2)) 0)) (wetMark_cases (c.getD (32 * i + (4 * g + 3)) 0))
  refine ⟨?_, ?_, ?_⟩
  · rw [h24, h32, Finset.mul_sum]; exact Finset.sum_le_sum fun g _ => (m g).1
  · rw [h24, h32, Finset.mul_sum]; exact Finset.sum_le_sum fun g _ => (m g).2
  · refine (Finset.sum_le_card_nsmul _ _ 1 fun k _ => wetMark_le_one _).trans ?_
    simp

/-- an hour is wet exactly if one of two neighbouring boxes is -/
theorem hour_two {c : List ℝ} (hc : ∀ x ∈ c, 0 ≤ x) (i k : Nat) : wetMark (hourSum c i k) =
    max (wetMark (c.getD ((4 * (24 * i + k)) / 3) 0)) (wetMark (c.getD ((4 * (24 * i + k)) / 3 + 1) 0)) := by
  obtain ⟨h0, h1, h2⟩ := hour_mark hc i (k / 3)
  have : k = 3 * (k / 3) ∨ k = 3 * (k / 3) + 1 ∨ k = 3 * (k / 3) + 2 := by omega
  generalize k / 3 = g at *
  rcases this with rfl | rfl | rfl
  · rw [h0, show (4 * (24 * i + 3 * g)) / 3 = 32 * i + 4 * g by omega, add_assoc]
  · rw [h1, show (4 * (24 * i + (3 * g + 1))) / 3 = 32 * i + (4 * g + 1) by omega]; rfl
  · rw [h2, show (4 * (24 * i + (3 * g + 2))) / 3 = 32 * i + (4 * g + 2) by omega]; rfl

end

end Melodist
