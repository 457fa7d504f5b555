import Verif.Spec.SelfFit
import Verif.Props.Aggregate
import Verif.Lemmas.WetCount

/-!
# Helper lemmas: statistics fitted to a level of the cascade
-/

set_option linter.unusedSectionVars false

namespace Melodist
open Spec MeasureTheory

noncomputable section

/-! ### one box -/

theorem box_halves {y : ℝ} (hy : 0 ≤ y) {x : ℝ × ℝ} (h : x ∈ boxOutcomes y) : x.1 + x.2 = y := by
  classical
  unfold boxOutcomes at h
  split_ifs at h with h0
  · rw [Finset.mem_singleton] at h
    subst h
    simp only [add_zero]
    exact le_antisymm hy h0
  · rcases Finset.mem_insert.1 h with h | h
    · subst h; simp
    rcases Finset.mem_insert.1 h with h | h
    · subst h; simp
    obtain ⟨c, -, rfl⟩ := Finset.mem_image.1 h
    simp only
    ring

theorem centre_class (c k : Fin 7) : ((classLimit k.castSucc : ℝ) < centre c ∧ centre c ≤ classLimit k.succ) ↔ c = k := by
  rcases fin7_cases c with rfl | rfl | rfl | rfl | rfl | rfl | rfl <;> rcases fin7_cases k with rfl | rfl | rfl | rfl | rfl | rfl | rfl <;>
    simp [centre0, centre1, centre2, centre3, centre4, centre5, centre6, classLimit] <;> norm_num

open Classical in
theorem box_branch {q : SplitLaw} (hq : q.Proper) {y : ℝ} (hy : 0 < y) :
    ∑ x ∈ boxOutcomes y, splitProbProper q y x.1 x.2 * (if x.1 = 0 ∧ 0 < x.2 then 1 else 0) = q.p01 ∧
    ∑ x ∈ boxOutcomes y, splitProbProper q y x.1 x.2 * (if 0 < x.1 ∧ x.2 = 0 then 1 else 0) = q.p10 ∧
    ∑ x ∈ boxOutcomes y, splitProbProper q y x.1 x.2 * (if 0 < x.1 ∧ 0 < x.2 then 1 else 0) = 1 - q.p01 - q.p10 ∧
    ∀ k : Fin 7, ∑ x ∈ boxOutcomes y, splitProbProper q y x.1 x.2 *
      (if 0 < x.1 ∧ 0 < x.2 ∧ classLimit k.castSucc < x.1 / (x.1 + x.2) ∧ x.1 / (x.1 + x.2) ≤ classLimit k.succ then 1 else 0) =
        (1 - q.p01 - q.p10) * q.w k := by
  have c1 : ∀ c, 0 < centre c * y := fun c => mul_pos (centre_pos c).1 hy
  have c2 : ∀ c, 0 < (1 - centre c) * y := fun c => mul_pos (sub_pos.2 (centre_pos c).2) hy
  have c3 : ∀ c, centre c * y / (centre c * y + (1 - centre c) * y) = centre c := by
    intro c
    rw [show centre c * y + (1 - centre c) * y = y by ring, mul_div_assoc, div_self hy.ne', mul_one]
  refine ⟨?_, ?_, ?_, fun k => ?_⟩
  · rw [box_expect q hy fun x => if x.1 = 0 ∧ 0 < x.2 then 1 else 0]
    simp [hy, hy.ne', (c1 _).ne', (centre_pos _).1.ne']
  · rw [box_expect q hy fun x => if 0 < x.1 ∧ x.2 = 0 then 1 else 0]
    simp [hy, hy.ne', (c2 _).ne', (sub_pos.2 (centre_pos _).2).ne']
  · rw [box_expect q hy fun x => if 0 < x.1 ∧ 0 < x.2 then 1 else 0]
    simp only [lt_irrefl, false_and, and_false, if_false, mul_zero, zero_add, c1, c2, and_self, if_true, mul_one, hq.2.2]
  · rw [box_expect q hy fun x => if 0 < x.1 ∧ 0 < x.2 ∧ classLimit k.castSucc < x.1 / (x.1 + x.2) ∧ x.1 / (x.1 + x.2) ≤ classLimit k.succ then 1 else 0]
    simp only [lt_irrefl, false_and, and_false, if_false, mul_zero, zero_add, c1, c2, c3, true_and, centre_class]
    congr 1
    simp

/-! ### the boxes of a level -/

section level
variable {q : Fin 2 → Fin 4 → SplitLaw} {thr : XF ℝ}

theorem level_two (hq : ∀ b t, (q b t).Proper) (start : Option ℝ) (p : List ℝ) {i k : Fin p.length} (hik : i ≠ k) (g h : ℝ × ℝ → ℝ) :
    ∑ x ∈ Fintype.piFinset fun j : Fin p.length => boxOutcomes (p.getD j 0), levelProb q thr start p (flat x) * (g (x i) * h (x k)) =
      (∑ x ∈ boxOutcomes (p.getD i 0), splitProbProper (lawOf q thr p i) (p.getD i 0) x.1 x.2 * g x) *
      ∑ x ∈ boxOutcomes (p.getD k 0), splitProbProper (lawOf q thr p k) (p.getD k 0) x.1 x.2 * h x := by
  have e : ∀ x : Fin p.length → ℝ × ℝ, levelProb q thr start p (flat x) * (g (x i) * h (x k)) =
      ∏ j : Fin p.length, (splitProbProper (lawOf q thr p j) (p.getD j 0) (x j).1 (x j).2 * ((if j = i then g (x j) else 1) * if j = k then h (x j) else 1)) := by
    intro x
    rw [Finset.prod_mul_distrib, Finset.prod_mul_distrib, levelProb_flat hq]
    congr 2
    · rw [Finset.prod_ite_eq' Finset.univ i fun j => g (x j), if_pos (Finset.mem_univ _)]
    · rw [Finset.prod_ite_eq' Finset.univ k fun j => h (x j), if_pos (Finset.mem_univ _)]
  simp only [e]
  rw [← Finset.prod_univ_sum (fun j : Fin p.length => boxOutcomes (p.getD j 0))
    (fun j x => splitProbProper (lawOf q thr p j) (p.getD j 0) x.1 x.2 * ((if j = i then g x else 1) * if j = k then h x else 1))]
  rw [Finset.prod_eq_mul i k hik]
  · simp [hik, hik.symm]
  · intro j _ hj
    simp only [if_neg hj.1, if_neg hj.2, mul_one]
    exact box_one (hq _ _) _
  · intro h; exact absurd (Finset.mem_univ i) h
  · intro h; exact absurd (Finset.mem_univ k) h

theorem level_count (hq : ∀ b t, (q b t).Proper) (start : Option ℝ) (p : List ℝ) (S : Finset (Fin p.length)) (g : ℝ × ℝ → ℝ) {μ : ℝ}
    (hμ : ∀ j ∈ S, ∑ x ∈ boxOutcomes (p.getD j 0), splitProbProper (lawOf q thr p j) (p.getD j 0) x.1 x.2 * g x = μ) :
    ∑ x ∈ Fintype.piFinset fun j : Fin p.length => boxOutcomes (p.getD j 0), levelProb q thr start p (flat x) * ∑ j ∈ S, g (x j) = S.card * μ := by
  simp only [Finset.mul_sum]
  rw [Finset.sum_comm, Finset.sum_congr rfl fun j hj => (level_box hq start p j g).trans (hμ j hj), Finset.sum_const, nsmul_eq_mul]

theorem level_square (hq : ∀ b t, (q b t).Proper) (start : Option ℝ) (p : List ℝ) (S : Finset (Fin p.length)) (g : ℝ × ℝ → ℝ) {v : ℝ}
    (h0 : ∀ j ∈ S, ∑ x ∈ boxOutcomes (p.getD j 0), splitProbProper (lawOf q thr p j) (p.getD j 0) x.1 x.2 * g x = 0)
    (hv : ∀ j ∈ S, ∑ x ∈ boxOutcomes (p.getD j 0), splitProbProper (lawOf q thr p j) (p.getD j 0) x.1 x.2 * (g x * g x) = v) :
    ∑ x ∈ Fintype.piFinset fun j : Fin p.length => boxOutcomes (p.getD j 0), levelProb q thr start p (flat x) * (∑ j ∈ S, g (x j)) ^ 2 = S.card * v := by
  have e : ∀ x : Fin p.length → ℝ × ℝ, levelProb q thr start p (flat x) * (∑ j ∈ S, g (x j)) ^ 2 =
      ∑ i ∈ S, ∑ k ∈ S, levelProb q thr start p (flat x) * (g (x i) * g (x k)) := by
    intro x
    rw [sq, Finset.sum_mul_sum, Finset.mul_sum]
    exact Finset.sum_congr rfl fun i _ => by rw [Finset.mul_sum]
  simp only [e]
  rw [Finset.sum_comm]
  have one : ∀ i ∈ S, ∑ x ∈ Fintype.piFinset fun j : Fin p.length => boxOutcomes (p.getD j 0), ∑ k ∈ S, levelProb q thr start p (flat x) * (g (x i) * g (x k)) = v := by
    intro i hi
    rw [Finset.sum_comm, Finset.sum_eq_single i]
    · exact (level_box hq start p i fun x => g x * g x).trans (hv i hi)
    · intro k hk hki
      rw [level_two hq start p hki.symm g g, h0 i hi, zero_mul]
    · intro h; exact absurd hi h
  rw [Finset.sum_congr rfl one, Finset.sum_const, nsmul_eq_mul]

/-- for indicators -/
theorem level_variance (hq : ∀ b t, (q b t).Proper) (start : Option ℝ) (p : List ℝ) (S : Finset (Fin p.length)) (A : ℝ × ℝ → Prop) [DecidablePred A] {μ : ℝ}
    (hμ : ∀ j ∈ S, ∑ x ∈ boxOutcomes (p.getD j 0), splitProbProper (lawOf q thr p j) (p.getD j 0) x.1 x.2 * (if A x then 1 else 0) = μ) :
    ∑ x ∈ Fintype.piFinset fun j : Fin p.length => boxOutcomes (p.getD j 0), levelProb q thr start p (flat x) *
      (∑ j ∈ S, (if A (x j) then (1 : ℝ) else 0) - S.card * μ) ^ 2 = S.card * (μ * (1 - μ)) := by
  have e : ∀ x : Fin p.length → ℝ × ℝ, ∑ j ∈ S, (if A (x j) then (1 : ℝ) else 0) - S.card * μ = ∑ j ∈ S, ((if A (x j) then (1 : ℝ) else 0) - μ) := by
    intro x
    rw [Finset.sum_sub_distrib, Finset.sum_const, nsmul_eq_mul]
  simp only [e]
  refine level_square hq start p S (fun x => (if A x then (1 : ℝ) else 0) - μ) ?_ ?_
  · intro j hj
    simp only [mul_sub, Finset.sum_sub_distrib]
    rw [hμ j hj, ← Finset.sum_mul, box_one (q := lawOf q thr p j) (hq _ _), one_mul, sub_self]
  · intro j hj
    have e2 : ∀ x : ℝ × ℝ, ((if A x then (1 : ℝ) else 0) - μ) * ((if A x then (1 : ℝ) else 0) - μ) = (1 - 2 * μ) * (if A x then (1 : ℝ) else 0) + μ * μ := by
      intro x; split_ifs <;> ring
    simp only [e2, mul_add, Finset.sum_add_distrib]
    rw [← Finset.sum_mul, box_one (q := lawOf q thr p j) (hq _ _), one_mul]
    have : ∀ x : ℝ × ℝ, splitProbProper (lawOf q thr p j) (p.getD j 0) x.1 x.2 * ((1 - 2 * μ) * (if A x then (1 : ℝ) else 0)) =
        (1 - 2 * μ) * (splitProbProper (lawOf q thr p j) (p.getD j 0) x.1 x.2 * (if A x then (1 : ℝ) else 0)) := fun x => by ring
    simp only [this]
    rw [← Finset.mul_sum, hμ j hj]
    ring

end level

/-! ### the fit -/

theorem aggBoxTypes_some : ∀ (l : List (XF ℝ)) (a : XF ℝ), ∃ ts, aggBoxTypes (some a) l = .ok ts
  | [], a => ⟨[], rfl⟩
  | x :: l, a => by
    obtain ⟨ts, h⟩ := aggBoxTypes_some l x
    have : ∃ t, aggBoxType (some a) x l.head? = .ok t := by
      unfold aggBoxType
      cases l.head? <;> split_ifs <;> exact ⟨_, rfl⟩
    obtain ⟨t, ht⟩ := this
    refine ⟨t :: ts, ?_⟩
    unfold aggBoxTypes
    rw [ht]
    simp only [bind, Except.bind, h]

theorem aggBoxTypes_two (x y : XF ℝ) (l : List (XF ℝ)) : ∃ ts, aggBoxTypes none (x :: y :: l) = .ok ts := by
  obtain ⟨ts, h⟩ := aggBoxTypes_some (y :: l) x
  have : ∃ t, aggBoxType none x (y :: l).head? = .ok t := by
    unfold aggBoxType
    simp only [List.head?_cons]
    split_ifs <;> exact ⟨_, rfl⟩
  obtain ⟨t, ht⟩ := this
  refine ⟨t :: ts, ?_⟩
  rw [aggBoxTypes, ht]
  simp only [bind, Except.bind, h]

theorem wetValues_fin (p : List ℝ) : wetValues (p.map XF.fin) = p.filter fun x => decide (0 < x) := by
  induction p with
  | nil => rfl
  | cons a p ih =>
    have e : wetValues ((a :: p).map XF.fin) = if 0 < a then a :: wetValues (p.map XF.fin) else wetValues (p.map XF.fin) := by
      unfold wetValues
      rw [List.map_cons, List.filterMap_cons]
      simp only
      split_ifs <;> rfl
    rw [e, ih, List.filter_cons]
    by_cases h : 0 < a <;> simp [h]

theorem outcome_box {p c : List ℝ} (hp : ∀ x ∈ p, 0 ≤ x) (hc : c ∈ levelOutcomes p) (j : Nat) : box (fun i => c.getD i 0) j = p.getD j 0 := by
  classical
  unfold box
  by_cases hj : j < p.length
  · obtain ⟨x, hx, rfl⟩ := Finset.mem_image.1 hc
    have h := flat_getD x ⟨j, hj⟩
    simp only at h ⊢
    rw [h.1, h.2]
    exact box_halves (getD_nonneg hp j) (Fintype.mem_piFinset.1 hx ⟨j, hj⟩)
  · have := levelOutcomes_length hc
    simp only
    rw [List.getD_eq_default _ _ (by omega), List.getD_eq_default _ _ (by omega), List.getD_eq_default _ _ (by omega), add_zero]

theorem list_range_map {c : List ℝ} : c.map XF.fin = (List.range c.length).map fun i => XF.fin (c.getD i 0) := by
  apply List.ext_getElem
  · simp
  · intro i h1 h2
    simp only [List.getElem_map, List.getElem_range]
    rw [List.getD_eq_getElem _ _ (by simpa using h1)]

theorem zip_values {V : Type} {times : List Time} {w : List V} (h : times.length = w.length) : Series.values (times.zip w) = w := by
  unfold Series.values
  rw [← List.unzip_snd, List.unzip_zip h]

theorem posType_kind {p c : List ℝ} (hp : ∀ x ∈ p, 0 ≤ x) (hc : c ∈ levelOutcomes p) {j : Nat} : boxKind (fun i => c.getD i 0) p.length j = posType p j := by
  unfold boxKind posType
  simp only [outcome_box hp hc]
  have : (j + 1 < p.length ∧ 0 < p.getD (j + 1) 0) ↔ 0 < p.getD (j + 1) 0 := by
    constructor
    · exact And.right
    · intro h
      refine ⟨?_, h⟩
      by_contra h'
      rw [List.getD_eq_default _ _ (by omega)] at h
      exact lt_irrefl _ h
  simp only [this]

/-- the boxes of a class as positions -/
def boxesFin (thr : XF ℝ) (p : List ℝ) (b : Fin 2) (t : Fin 4) : Finset (Fin p.length) := open Classical in
  Finset.univ.filter fun j : Fin p.length => (j : Nat) ∈ boxesOf thr p b t

theorem boxesFin_card (thr : XF ℝ) (p : List ℝ) (b : Fin 2) (t : Fin 4) : (boxesFin thr p b t).card = (boxesOf thr p b t).card := by
  classical
  rw [← Finset.card_map Fin.valEmbedding]
  congr 1
  ext j
  simp only [boxesFin, Finset.mem_map, Finset.mem_filter, Finset.mem_univ, true_and, Fin.valEmbedding_apply]
  constructor
  · rintro ⟨a, h, rfl⟩; exact h
  · intro h
    have : j < p.length := by
      unfold boxesOf at h
      exact Finset.mem_range.1 (Finset.mem_filter.1 h).1
    exact ⟨⟨j, this⟩, h, rfl⟩

theorem boxesFin_mem {thr : XF ℝ} {p : List ℝ} {b : Fin 2} {t : Fin 4} {j : Fin p.length} (h : j ∈ boxesFin thr p b t) :
    0 < p.getD j 0 ∧ ∀ q : Fin 2 → Fin 4 → SplitLaw, lawOf q thr p j = q b t := by
  classical
  have h := (Finset.mem_filter.1 (Finset.mem_filter.1 h).2).2
  refine ⟨h.1, fun q => ?_⟩
  unfold lawOf
  rw [h.2.1, h.2.2]

/-- the counts of the fit as sums over the boxes -/
theorem boxCount_sum {p : List ℝ} (hp : ∀ x ∈ p, 0 ≤ x) {x : Fin p.length → ℝ × ℝ} (hx : flat x ∈ levelOutcomes p) {m : ℝ} {thr : XF ℝ}
    (hm : ∀ y ∈ p, 0 < y → (m < y ↔ XF.lt thr (.fin y))) (b : Fin 2) (t : Fin 4) (A : ℝ → ℝ → Prop) [∀ u v, Decidable (A u v)] :
    (boxCount (fun i => (flat x).getD i 0) p.length m b t A : ℝ) = ∑ j ∈ boxesFin thr p b t, (if A (x j).1 (x j).2 then (1 : ℝ) else 0) := by
  classical
  unfold boxCount
  have e1 : ∀ (P : Nat → Prop) [DecidablePred P], (((List.range p.length).filter fun j => decide (P j)).length : ℝ) = ∑ j : Fin p.length, (if P j then (1 : ℝ) else 0) := by
    intro P _
    rw [← Finset.sum_range fun j => if P j then (1 : ℝ) else 0, Finset.sum_boole]
    rfl
  rw [e1 fun j => 0 < box (fun i => (flat x).getD i 0) j ∧ intensity m (box (fun i => (flat x).getD i 0) j) = b ∧ boxKind (fun i => (flat x).getD i 0) p.length j = t ∧
    A ((flat x).getD (2 * j) 0) ((flat x).getD (2 * j + 1) 0)]
  unfold boxesFin
  rw [Finset.sum_filter]
  refine Finset.sum_congr rfl fun j _ => ?_
  rw [outcome_box hp hx, posType_kind hp hx, (flat_getD x j).1, (flat_getD x j).2]
  have hj : (j : Nat) ∈ boxesOf thr p b t ↔ 0 < p.getD j 0 ∧ intensity m (p.getD j 0) = b ∧ posType p j = t := by
    unfold boxesOf
    rw [Finset.mem_filter]
    constructor
    · rintro ⟨-, h1, h2, h3⟩
      refine ⟨h1, ?_, h3⟩
      unfold intensity
      rw [← h2]
      have := hm (p.getD j 0) (by rw [List.getD_eq_getElem _ _ j.2]; exact List.getElem_mem _) h1
      simp only [this]
    · rintro ⟨h1, h2, h3⟩
      refine ⟨Finset.mem_range.2 j.2, h1, ?_, h3⟩
      unfold intensity at h2
      rw [← h2]
      have := hm (p.getD j 0) (by rw [List.getD_eq_getElem _ _ j.2]; exact List.getElem_mem _) h1
      simp only [this]
  by_cases h1 : 0 < p.getD j 0 ∧ intensity m (p.getD j 0) = b ∧ posType p j = t
  · rw [if_pos (hj.2 h1)]
    simp only [h1, true_and]
  · rw [if_neg fun h => h1 (hj.1 h), if_neg]
    rintro ⟨a, b, c, -⟩
    exact h1 ⟨a, b, c⟩

/-- the fit succeeds on every outcome of a level -/
theorem fit_ok {p c : List ℝ} (hp : ∀ x ∈ p, 0 ≤ x) (h2 : 2 ≤ p.length) (hc : c ∈ levelOutcomes p) {times : List Time} (ht : times.length = 2 * p.length) {pct m : ℝ}
    (hm : npPercentile (p.filter fun x => decide (0 < x)) pct = .ok m) :
    ∃ s v, aggregatePrecipitation (times.zip (c.map .fin)) pct = .ok (s, v) ∧ s.threshold = [.fin m] := by
  have hlen := levelOutcomes_length hc
  have hval : Series.values (times.zip (c.map XF.fin)) = (List.range c.length).map fun i => XF.fin (c.getD i 0) := by
    rw [zip_values (by simp; omega), list_range_map]
  have hbox : (pairSums (times.zip (c.map XF.fin))).values = p.map XF.fin := by
    rw [boxes_range hval, list_range_map, hlen]
    congr 1
    · funext j; rw [outcome_box hp hc]
    · congr 1; omega
  have hfin : (List.any (times.zip (c.map XF.fin)) fun r => ! decide r.2.NanOrFin) = false := by
    rw [List.any_eq_false]
    intro r hr
    have : r.2 ∈ c.map XF.fin := by
      obtain ⟨a, b⟩ := r
      exact (List.of_mem_zip hr).2
    obtain ⟨y, -, e⟩ := List.mem_map.1 this
    have h : r.2.NanOrFin := by rw [← e]; exact trivial
    simp [h]
  obtain ⟨ts, hts⟩ : ∃ ts, aggBoxTypes none (p.map XF.fin) = .ok ts := by
    match p, h2 with
    | x :: y :: l, _ => exact aggBoxTypes_two _ _ _
  have h : aggregatePrecipitation (times.zip (c.map XF.fin)) pct =
      .ok (finishStats { CascStats.init with percentile := pct, threshold := [.fin m] } (aggCount m (valuePairs (Series.values (times.zip (c.map XF.fin)))) ts {}),
        pairSums (times.zip (c.map XF.fin))) := by
    unfold aggregatePrecipitation
    simp only [hfin, hbox, wetValues_fin, hm, hts, bind, Except.bind]
    rfl
  exact ⟨_, _, h, (finishStats_fields _ _).1⟩

open Classical in
/-- the entries of the fit as sums over the boxes -/
theorem fit_entries {p : List ℝ} (hp : ∀ x ∈ p, 0 ≤ x) (h2 : 2 ≤ p.length) {x : Fin p.length → ℝ × ℝ} (hx : flat x ∈ levelOutcomes p) {times : List Time}
    (ht : times.length = 2 * p.length) {pct m : ℝ} (hm : npPercentile (p.filter fun x => decide (0 < x)) pct = .ok m) {thr : XF ℝ}
    (hc : ∀ y ∈ p, 0 < y → (m < y ↔ XF.lt thr (.fin y))) (hne : ∀ b t, (boxesOf thr p b t).Nonempty) :
    ∃ s v, aggregatePrecipitation (times.zip ((flat x).map .fin)) pct = .ok (s, v) ∧ s.threshold = [.fin m] ∧ ∀ b t,
      let S := boxesFin thr p b t
      s.p01 b t = .fin ((∑ j ∈ S, if (x j).1 = 0 ∧ 0 < (x j).2 then (1 : ℝ) else 0) / S.card) ∧
      s.p10 b t = .fin ((∑ j ∈ S, if 0 < (x j).1 ∧ (x j).2 = 0 then (1 : ℝ) else 0) / S.card) ∧
      s.pxx b t = .fin ((∑ j ∈ S, if 0 < (x j).1 ∧ 0 < (x j).2 then (1 : ℝ) else 0) / S.card) ∧
      ∀ k, ∃ w, s.wxx k b t = .fin w ∧ ((∑ j ∈ S, if 0 < (x j).1 ∧ 0 < (x j).2 then (1 : ℝ) else 0) / S.card) * w =
        (∑ j ∈ S, if 0 < (x j).1 ∧ 0 < (x j).2 ∧ classLimit k.castSucc < (x j).1 / ((x j).1 + (x j).2) ∧ (x j).1 / ((x j).1 + (x j).2) ≤ classLimit k.succ
          then (1 : ℝ) else 0) / S.card := by
  obtain ⟨s, v, h1, hthr⟩ := fit_ok hp h2 hx ht hm
  refine ⟨s, v, h1, hthr, ?_⟩
  have hlen := flat_length x
  obtain ⟨m', e1, -, -, h4⟩ := C26_frequencies _ (2 * p.length) (fun i => (flat x).getD i 0) (getD_nonneg (levelOutcomes_nonneg hx))
    (by rw [zip_values (by simp; omega), list_range_map, hlen]) pct s v h1
  rw [hthr] at e1
  have : m = m' := by injection e1 with e _; injection e
  subst this
  simp only [show 2 * p.length / 2 = p.length by omega] at h4
  have card : ∀ b t, (boxCount (fun i => (flat x).getD i 0) p.length m b t (fun _ _ => True) : ℝ) = (boxesFin thr p b t).card := by
    intro b t
    rw [boxCount_sum hp hx hc b t fun _ _ => True]
    simp
  have h4 := h4 (by
    intro b t h0
    have := card b t
    rw [h0, boxesFin_card] at this
    have h : (boxesOf thr p b t).card = 0 := by exact_mod_cast this.symm
    exact (hne b t).ne_empty (Finset.card_eq_zero.1 h))
  intro b t S
  obtain ⟨a1, a2, a3, a4, a5⟩ := h4 b t
  rw [boxCount_sum hp hx hc b t fun u v => u = 0 ∧ 0 < v, card] at a1
  rw [boxCount_sum hp hx hc b t fun u v => 0 < u ∧ v = 0, card] at a2
  have cxx := boxCount_sum hp hx hc b t fun u v => 0 < u ∧ 0 < v
  rw [cxx, card] at a3
  refine ⟨a1, a2, a3, fun k => ?_⟩
  have ck := boxCount_sum hp hx hc b t fun u v => 0 < u ∧ 0 < v ∧ classLimit k.castSucc < u / (u + v) ∧ u / (u + v) ≤ classLimit k.succ
  by_cases h0 : boxCount (fun i => (flat x).getD i 0) p.length m b t (fun u v => 0 < u ∧ 0 < v) = 0
  · refine ⟨_, a4 h0 k, ?_⟩
    rw [h0] at cxx
    simp only [Nat.cast_zero] at cxx
    rw [← cxx, zero_div, zero_mul]
    symm
    rw [div_eq_zero_iff]
    left
    refine Finset.sum_eq_zero fun j hj => ?_
    have hz := (Finset.sum_eq_zero_iff_of_nonneg fun j _ => by split_ifs <;> norm_num).1 cxx.symm j hj
    rw [if_neg]
    rintro ⟨u1, u2, -⟩
    rw [if_pos ⟨u1, u2⟩] at hz
    exact one_ne_zero hz
  · refine ⟨_, a5 h0 k, ?_⟩
    have hz : (boxCount (fun i => (flat x).getD i 0) p.length m b t (fun u v => 0 < u ∧ 0 < v) : ℝ) ≠ 0 := by exact_mod_cast h0
    rw [← cxx, ← ck]
    field_simp

end

end Melodist
