import Verif.Spec.CascadeMean
import Verif.Props.CascadeLaw
import Mathlib.MeasureTheory.Integral.Bochner.Set

/-!
# Helper lemmas: sums over the outcomes of the cascade
-/

set_option linter.unusedSectionVars false

namespace Melodist
open Spec MeasureTheory

noncomputable section

/-! ### one box -/

/-- what can become of a box -/
def boxOutcomes (y : ℝ) : Finset (ℝ × ℝ) := open Classical in
  if y ≤ 0 then {(0, 0)} else insert (0, y) (insert (y, 0) (Finset.univ.image fun c => (centre c * y, (1 - centre c) * y)))

theorem box_expect (q : SplitLaw) {y : ℝ} (hy : 0 < y) (g : ℝ × ℝ → ℝ) :
    ∑ x ∈ boxOutcomes y, splitProbProper q y x.1 x.2 * g x =
      q.p01 * g (0, y) + (q.p10 * g (y, 0) + (1 - q.p01 - q.p10) * ∑ c, q.w c * g (centre c * y, (1 - centre c) * y)) := by
  classical
  have hy0 : ¬ y ≤ 0 := not_le.2 hy
  have hne : y ≠ 0 := hy.ne'
  unfold boxOutcomes
  rw [if_neg hy0]
  have d1 : ((0 : ℝ), y) ∉ insert ((y : ℝ), (0 : ℝ)) (Finset.univ.image fun c => (centre c * y, (1 - centre c) * y)) := by
    intro h
    rcases Finset.mem_insert.1 h with h | h
    · exact hne (congrArg Prod.fst h).symm
    · obtain ⟨c, -, h⟩ := Finset.mem_image.1 h
      have := congrArg Prod.fst h
      have hc := (centre_pos c).1
      exact (mul_pos hc hy).ne' this
  have d2 : ((y : ℝ), (0 : ℝ)) ∉ (Finset.univ.image fun c => (centre c * y, (1 - centre c) * y)) := by
    intro h
    obtain ⟨c, -, h⟩ := Finset.mem_image.1 h
    have := congrArg Prod.snd h
    have hc := (centre_pos c).2
    exact (mul_pos (sub_pos.2 hc) hy).ne' this
  have inj : ∀ a ∈ (Finset.univ : Finset (Fin 7)), ∀ b ∈ (Finset.univ : Finset (Fin 7)),
      (centre a * y, (1 - centre a) * y) = (centre b * y, (1 - centre b) * y) → a = b := by
    intro a _ b _ h
    exact centre_inj (mul_right_cancel₀ hne (congrArg Prod.fst h))
  rw [Finset.sum_insert d1, Finset.sum_insert d2, Finset.sum_image inj]
  have e1 : splitProbProper q y 0 y = q.p01 := by
    unfold splitProbProper; rw [if_neg hy0, if_pos ⟨rfl, rfl⟩]
  have e2 : splitProbProper q y y 0 = q.p10 := by
    unfold splitProbProper; rw [if_neg hy0, if_neg (fun h => hne h.1), if_pos ⟨rfl, rfl⟩]
  have e3 : ∀ c, splitProbProper q y (centre c * y) ((1 - centre c) * y) = (1 - q.p01 - q.p10) * q.w c := by
    intro c
    have hc := centre_pos c
    unfold splitProbProper
    rw [if_neg hy0, if_neg (fun h => (mul_pos hc.1 hy).ne' h.1), if_neg (fun h => (mul_pos (sub_pos.2 hc.2) hy).ne' h.2)]
    congr 1
    rw [Finset.sum_eq_single c]
    · rw [if_pos ⟨rfl, rfl⟩]
    · intro b _ hb
      rw [if_neg]
      intro h
      exact hb (centre_inj (mul_right_cancel₀ hne h.1)).symm
    · intro h; exact absurd (Finset.mem_univ c) h
  simp only [e1, e2, e3]
  congr 2
  rw [Finset.mul_sum]
  exact Finset.sum_congr rfl fun c _ => by ring

theorem box_one {q : SplitLaw} (hq : q.Proper) (y : ℝ) : ∑ x ∈ boxOutcomes y, splitProbProper q y x.1 x.2 = 1 := by
  by_cases hy : y ≤ 0
  · unfold boxOutcomes
    rw [if_pos hy, Finset.sum_singleton]
    unfold splitProbProper
    rw [if_pos hy, if_pos ⟨rfl, rfl⟩]
  · have := box_expect q (not_le.1 hy) fun _ => 1
    simp only [mul_one] at this
    rw [this, hq.2.2]
    ring

theorem box_first {q : SplitLaw} {y : ℝ} (hy : 0 ≤ y) : ∑ x ∈ boxOutcomes y, splitProbProper q y x.1 x.2 * x.1 = q.firstShare * y := by
  rcases hy.eq_or_lt with h | h
  · subst h
    unfold boxOutcomes
    rw [if_pos (le_refl _), Finset.sum_singleton]
    simp
  · rw [box_expect q h fun x => x.1]
    unfold SplitLaw.firstShare
    simp only [← mul_assoc, ← Finset.sum_mul]
    ring

theorem box_second {q : SplitLaw} {y : ℝ} (hy : 0 ≤ y) : ∑ x ∈ boxOutcomes y, splitProbProper q y x.1 x.2 * x.2 = q.secondShare * y := by
  rcases hy.eq_or_lt with h | h
  · subst h
    unfold boxOutcomes
    rw [if_pos (le_refl _), Finset.sum_singleton]
    simp
  · rw [box_expect q h fun x => x.2]
    unfold SplitLaw.secondShare
    simp only [← mul_assoc, ← Finset.sum_mul]
    ring

theorem box_nonneg {y : ℝ} {x : ℝ × ℝ} (h : x ∈ boxOutcomes y) : 0 ≤ x.1 ∧ 0 ≤ x.2 := by
  classical
  unfold boxOutcomes at h
  split_ifs at h with hy
  · rw [Finset.mem_singleton] at h; subst h; exact ⟨le_refl _, le_refl _⟩
  · have hy := not_le.1 hy
    rcases Finset.mem_insert.1 h with h | h
    · subst h; exact ⟨le_refl _, hy.le⟩
    rcases Finset.mem_insert.1 h with h | h
    · subst h; exact ⟨hy.le, le_refl _⟩
    obtain ⟨c, -, h⟩ := Finset.mem_image.1 h
    have hc := centre_pos c
    subst h
    exact ⟨(mul_pos hc.1 hy).le, (mul_pos (sub_pos.2 hc.2) hy).le⟩

/-! ### the boxes of a level -/

/-- the halves of the boxes one after the other -/
def flat {n : Nat} (x : Fin n → ℝ × ℝ) : List ℝ := (List.ofFn x).flatMap fun p => [p.1, p.2]

theorem flat_length {n : Nat} (x : Fin n → ℝ × ℝ) : (flat x).length = 2 * n := by
  have h : ∀ l : List (ℝ × ℝ), (l.flatMap fun p => [p.1, p.2]).length = 2 * l.length := by
    intro l
    induction l with
    | nil => rfl
    | cons a l ih => rw [List.flatMap_cons, List.length_append, ih, List.length_cons]; simp; ring
  unfold flat
  rw [h, List.length_ofFn]

theorem pairs_getD : ∀ (l : List (ℝ × ℝ)) (j : Nat), (l.flatMap fun p => [p.1, p.2]).getD (2 * j) 0 = (l.getD j (0, 0)).1 ∧
    (l.flatMap fun p => [p.1, p.2]).getD (2 * j + 1) 0 = (l.getD j (0, 0)).2
  | [], j => by simp
  | p :: l, 0 => by simp
  | p :: l, j + 1 => by
    have := pairs_getD l j
    rw [show 2 * (j + 1) = 2 * j + 2 by ring]
    simpa [List.flatMap_cons] using this

theorem flat_getD {n : Nat} (x : Fin n → ℝ × ℝ) (j : Fin n) : (flat x).getD (2 * j) 0 = (x j).1 ∧ (flat x).getD (2 * j + 1) 0 = (x j).2 := by
  have h := pairs_getD (List.ofFn x) j
  have e : (List.ofFn x).getD j (0, 0) = x j := by
    rw [List.getD_eq_getElem _ _ (by simp)]
    simp
  rw [e] at h
  exact h

theorem flat_inj {n : Nat} {x y : Fin n → ℝ × ℝ} (h : flat x = flat y) : x = y := by
  funext j
  apply Prod.ext
  · rw [← (flat_getD x j).1, h, (flat_getD y j).1]
  · rw [← (flat_getD x j).2, h, (flat_getD y j).2]

/-- what can become of the boxes of a level -/
def levelOutcomes (p : List ℝ) : Finset (List ℝ) := open Classical in
  (Fintype.piFinset fun j : Fin p.length => boxOutcomes (p.getD j 0)).image flat

/-- the law of box `j` of a level -/
def lawOf (q : Fin 2 → Fin 4 → SplitLaw) (thr : XF ℝ) (p : List ℝ) (j : Nat) : SplitLaw :=
  q (if XF.lt thr (.fin (p.getD j 0)) then 1 else 0) (posType p j)

variable {q : Fin 2 → Fin 4 → SplitLaw} {thr : XF ℝ}

theorem levelProb_flat (hq : ∀ b t, (q b t).Proper) (start : Option ℝ) (p : List ℝ) (x : Fin p.length → ℝ × ℝ) :
    levelProb q thr start p (flat x) = ∏ j : Fin p.length, splitProbProper (lawOf q thr p j) (p.getD j 0) (x j).1 (x j).2 := by
  unfold levelProb
  rw [if_pos (flat_length x), Finset.prod_range]
  apply Finset.prod_congr rfl
  intro j _
  rw [splitProb_proper (hq _ _), (flat_getD x j).1, (flat_getD x j).2]
  rfl

theorem level_sum (p : List ℝ) (g : List ℝ → ℝ) :
    ∑ c ∈ levelOutcomes p, g c = ∑ x ∈ Fintype.piFinset fun j : Fin p.length => boxOutcomes (p.getD j 0), g (flat x) := by
  classical
  unfold levelOutcomes
  exact Finset.sum_image fun a _ b _ h => flat_inj h

theorem level_box (hq : ∀ b t, (q b t).Proper) (start : Option ℝ) (p : List ℝ) (i : Fin p.length) (g : ℝ × ℝ → ℝ) :
    ∑ x ∈ Fintype.piFinset fun j : Fin p.length => boxOutcomes (p.getD j 0), levelProb q thr start p (flat x) * g (x i) =
      ∑ x ∈ boxOutcomes (p.getD i 0), splitProbProper (lawOf q thr p i) (p.getD i 0) x.1 x.2 * g x := by
  have e : ∀ x : Fin p.length → ℝ × ℝ, levelProb q thr start p (flat x) * g (x i) =
      ∏ j : Fin p.length, (splitProbProper (lawOf q thr p j) (p.getD j 0) (x j).1 (x j).2 * if j = i then g (x j) else 1) := by
    intro x
    rw [Finset.prod_mul_distrib, levelProb_flat hq]
    congr 1
    rw [Finset.prod_ite_eq' Finset.univ i fun j => g (x j), if_pos (Finset.mem_univ _)]
  simp only [e]
  rw [← Finset.prod_univ_sum (fun j : Fin p.length => boxOutcomes (p.getD j 0))
    (fun j x => splitProbProper (lawOf q thr p j) (p.getD j 0) x.1 x.2 * if j = i then g x else 1)]
  rw [Finset.prod_eq_single i]
  · simp
  · intro j _ hj
    simp only [if_neg hj, mul_one]
    exact box_one (hq _ _) _
  · intro h; exact absurd (Finset.mem_univ i) h

theorem level_one (hq : ∀ b t, (q b t).Proper) (start : Option ℝ) (p : List ℝ) : ∑ c ∈ levelOutcomes p, levelProb q thr start p c = 1 := by
  rw [level_sum]
  simp only [levelProb_flat hq]
  rw [← Finset.prod_univ_sum (fun j : Fin p.length => boxOutcomes (p.getD j 0))
    (fun j x => splitProbProper (lawOf q thr p j) (p.getD j 0) x.1 x.2)]
  exact Finset.prod_eq_one fun j _ => box_one (hq _ _) _

theorem level_first (hq : ∀ b t, (q b t).Proper) (start : Option ℝ) {p : List ℝ} (hp : ∀ x ∈ p, 0 ≤ x) {j : Nat} (hj : j < p.length) :
    ∑ c ∈ levelOutcomes p, levelProb q thr start p c * c.getD (2 * j) 0 = (lawOf q thr p j).firstShare * p.getD j 0 := by
  rw [level_sum]
  have := level_box (thr := thr) hq start p ⟨j, hj⟩ fun x => x.1
  simp only at this
  rw [box_first (by rw [List.getD_eq_getElem _ _ hj]; exact hp _ (List.getElem_mem hj))] at this
  rw [← this]
  exact Finset.sum_congr rfl fun x _ => by rw [(flat_getD x ⟨j, hj⟩).1]

theorem level_second (hq : ∀ b t, (q b t).Proper) (start : Option ℝ) {p : List ℝ} (hp : ∀ x ∈ p, 0 ≤ x) {j : Nat} (hj : j < p.length) :
    ∑ c ∈ levelOutcomes p, levelProb q thr start p c * c.getD (2 * j + 1) 0 = (lawOf q thr p j).secondShare * p.getD j 0 := by
  rw [level_sum]
  have := level_box (thr := thr) hq start p ⟨j, hj⟩ fun x => x.2
  simp only at this
  rw [box_second (by rw [List.getD_eq_getElem _ _ hj]; exact hp _ (List.getElem_mem hj))] at this
  rw [← this]
  exact Finset.sum_congr rfl fun x _ => by rw [(flat_getD x ⟨j, hj⟩).2]

theorem levelOutcomes_length {p c : List ℝ} (h : c ∈ levelOutcomes p) : c.length = 2 * p.length := by
  classical
  obtain ⟨x, -, rfl⟩ := Finset.mem_image.1 h
  exact flat_length x

theorem levelOutcomes_nonneg {p c : List ℝ} (h : c ∈ levelOutcomes p) : ∀ x ∈ c, 0 ≤ x := by
  classical
  obtain ⟨x, hx, rfl⟩ := Finset.mem_image.1 h
  intro y hy
  unfold flat at hy
  obtain ⟨z, hz, hy⟩ := List.mem_flatMap.1 hy
  obtain ⟨j, rfl⟩ := (List.mem_ofFn' x z).1 hz
  have := box_nonneg (Fintype.mem_piFinset.1 hx j)
  rcases List.mem_cons.1 hy with rfl | hy
  · exact this.1
  · rw [List.mem_singleton] at hy; subst hy; exact this.2

theorem splitProbProper_nonneg {q : SplitLaw} (hq : q.Proper) (y a b : ℝ) : 0 ≤ splitProbProper q y a b := by
  obtain ⟨⟨n1, n2, n3⟩, p1, -⟩ := hq
  unfold splitProbProper
  split_ifs
  · norm_num
  · exact le_refl _
  · exact n1
  · exact n2
  · refine mul_nonneg (by linarith) (Finset.sum_nonneg fun c _ => ?_)
    split_ifs
    · exact n3 c
    · exact le_refl _

theorem levelProb_nonneg (hq : ∀ b t, (q b t).Proper) (start : Option ℝ) (p c : List ℝ) : 0 ≤ levelProb q thr start p c := by
  unfold levelProb
  split_ifs
  · refine Finset.prod_nonneg fun j _ => ?_
    rw [splitProb_proper (hq _ _)]
    exact splitProbProper_nonneg (hq _ _) _ _ _
  · exact le_refl _

/-! ### all levels -/

/-- what can become of the boxes in `L` levels -/
def outcomes : Nat → List ℝ → Finset (List (List ℝ))
  | 0, _ => {[]}
  | L + 1, p => open Classical in (levelOutcomes p).biUnion fun c => (outcomes L c).image (c :: ·)

theorem outcomes_sum (L : Nat) (p : List ℝ) (g : List (List ℝ) → ℝ) :
    ∑ ls ∈ outcomes (L + 1) p, g ls = ∑ c ∈ levelOutcomes p, ∑ r ∈ outcomes L c, g (c :: r) := by
  classical
  show ∑ ls ∈ (levelOutcomes p).biUnion fun c => (outcomes L c).image (c :: ·), g ls = _
  rw [Finset.sum_biUnion]
  · refine Finset.sum_congr rfl fun c _ => ?_
    exact Finset.sum_image fun a _ b _ h => (List.cons.inj h).2
  · intro a _ b _ hab
    apply Finset.disjoint_left.2
    intro l ha hb
    obtain ⟨r, -, rfl⟩ := Finset.mem_image.1 ha
    obtain ⟨s, -, h⟩ := Finset.mem_image.1 hb
    exact hab (List.cons.inj h).1.symm

theorem outcomes_length : ∀ (L : Nat) (p : List ℝ), ∀ ls ∈ outcomes L p, ls.length = L := by
  classical
  intro L
  induction L with
  | zero => intro p ls h; rw [outcomes, Finset.mem_singleton] at h; subst h; rfl
  | succ L ih =>
    intro p ls h
    obtain ⟨c, -, h⟩ := Finset.mem_biUnion.1 h
    obtain ⟨r, hr, rfl⟩ := Finset.mem_image.1 h
    rw [List.length_cons, ih c r hr]

variable {q : Nat → Fin 2 → Fin 4 → SplitLaw} {thr : Nat → XF ℝ}

theorem levels_one (hq : ∀ l b t, (q l b t).Proper) : ∀ (L l : Nat) (start : Option ℝ) (p : List ℝ),
    ∑ ls ∈ outcomes L p, levelsProb q thr l start p ls = 1
  | 0, _, _, _ => by simp [outcomes, levelsProb]
  | L + 1, l, start, p => by
    rw [outcomes_sum]
    simp only [levelsProb, ← Finset.mul_sum, levels_one hq L, mul_one]
    exact level_one (hq l) start p

/-- expected amount in a box, bounds from bounds of the shares -/
theorem levels_box (hq : ∀ l b t, (q l b t).Proper) {α β : ℝ} (hα : 0 ≤ α)
    (hs : ∀ l b t, α ≤ (q l b t).firstShare ∧ (q l b t).firstShare ≤ β ∧ α ≤ (q l b t).secondShare ∧ (q l b t).secondShare ≤ β) :
    ∀ (i L l : Nat) (start : Option ℝ) (p : List ℝ) (j : Nat), i < L → (∀ x ∈ p, 0 ≤ x) → j < p.length * 2 ^ (i + 1) →
      α ^ (i + 1) * p.getD (j / 2 ^ (i + 1)) 0 ≤ ∑ ls ∈ outcomes L p, levelsProb q thr l start p ls * (ls.getD i []).getD j 0 ∧
      ∑ ls ∈ outcomes L p, levelsProb q thr l start p ls * (ls.getD i []).getD j 0 ≤ β ^ (i + 1) * p.getD (j / 2 ^ (i + 1)) 0 := by
  have hβ : 0 ≤ β := hα.trans ((hs 0 0 0).1.trans (hs 0 0 0).2.1)
  have one : ∀ (l : Nat) (start : Option ℝ) (p : List ℝ) (j : Nat), (∀ x ∈ p, 0 ≤ x) → j < 2 * p.length →
      α * p.getD (j / 2) 0 ≤ ∑ c ∈ levelOutcomes p, levelProb (q l) (thr l) start p c * c.getD j 0 ∧
      ∑ c ∈ levelOutcomes p, levelProb (q l) (thr l) start p c * c.getD j 0 ≤ β * p.getD (j / 2) 0 := by
    intro l start p j hp hj
    have hk : j / 2 < p.length := by omega
    have h0 : 0 ≤ p.getD (j / 2) 0 := by rw [List.getD_eq_getElem _ _ hk]; exact hp _ (List.getElem_mem hk)
    rcases Nat.mod_two_eq_zero_or_one j with h | h
    · have e : j = 2 * (j / 2) := by omega
      have := level_first (thr := thr l) (hq l) start hp hk
      rw [← e] at this
      rw [this]
      exact ⟨mul_le_mul_of_nonneg_right (hs _ _ _).1 h0, mul_le_mul_of_nonneg_right (hs _ _ _).2.1 h0⟩
    · have e : j = 2 * (j / 2) + 1 := by omega
      have := level_second (thr := thr l) (hq l) start hp hk
      rw [← e] at this
      rw [this]
      exact ⟨mul_le_mul_of_nonneg_right (hs _ _ _).2.2.1 h0, mul_le_mul_of_nonneg_right (hs _ _ _).2.2.2 h0⟩
  intro i
  induction i with
  | zero =>
    intro L l start p j hL hp hj
    obtain ⟨L, rfl⟩ : ∃ M, L = M + 1 := ⟨L - 1, by omega⟩
    rw [outcomes_sum]
    simp only [levelsProb, List.getD_cons_zero]
    have e : ∀ c, ∑ r ∈ outcomes L c, levelProb (q l) (thr l) start p c * levelsProb q thr (l + 1) (lastWeight p c start p.length) c r * c.getD j 0 =
        levelProb (q l) (thr l) start p c * c.getD j 0 := by
      intro c
      rw [← Finset.sum_mul, ← Finset.mul_sum, levels_one hq, mul_one]
    simp only [e, zero_add, pow_one]
    exact one l start p j hp (by simpa [mul_comm] using hj)
  | succ i ih =>
    intro L l start p j hL hp hj
    obtain ⟨L, rfl⟩ : ∃ M, L = M + 1 := ⟨L - 1, by omega⟩
    rw [outcomes_sum]
    simp only [levelsProb, List.getD_cons_succ]
    have e : ∀ c, ∑ r ∈ outcomes L c, levelProb (q l) (thr l) start p c * levelsProb q thr (l + 1) (lastWeight p c start p.length) c r * (r.getD i []).getD j 0 =
        levelProb (q l) (thr l) start p c * ∑ r ∈ outcomes L c, levelsProb q thr (l + 1) (lastWeight p c start p.length) c r * (r.getD i []).getD j 0 := by
      intro c
      rw [Finset.mul_sum]
      exact Finset.sum_congr rfl fun r _ => by ring
    simp only [e]
    have hj2 : j / 2 ^ (i + 1) < 2 * p.length := by
      rw [Nat.div_lt_iff_lt_mul (by positivity)]
      calc j < p.length * 2 ^ (i + 1 + 1) := hj
        _ = 2 * p.length * 2 ^ (i + 1) := by ring
    have hdiv : j / 2 ^ (i + 1 + 1) = j / 2 ^ (i + 1) / 2 := by rw [pow_succ, Nat.div_div_eq_div_mul]
    have h1 := one l start p (j / 2 ^ (i + 1)) hp hj2
    rw [hdiv]
    have step : ∀ c ∈ levelOutcomes p, _ := fun c hc => ih L (l + 1) (lastWeight p c start p.length) c j (by omega) (levelOutcomes_nonneg hc)
      (by rw [levelOutcomes_length hc]; calc j < p.length * 2 ^ (i + 1 + 1) := hj
            _ = 2 * p.length * 2 ^ (i + 1) := by ring)
    constructor
    · calc α ^ (i + 1 + 1) * p.getD (j / 2 ^ (i + 1) / 2) 0 = α ^ (i + 1) * (α * p.getD (j / 2 ^ (i + 1) / 2) 0) := by ring
        _ ≤ α ^ (i + 1) * ∑ c ∈ levelOutcomes p, levelProb (q l) (thr l) start p c * c.getD (j / 2 ^ (i + 1)) 0 :=
          mul_le_mul_of_nonneg_left h1.1 (by positivity)
        _ = ∑ c ∈ levelOutcomes p, levelProb (q l) (thr l) start p c * (α ^ (i + 1) * c.getD (j / 2 ^ (i + 1)) 0) := by
          rw [Finset.mul_sum]; exact Finset.sum_congr rfl fun c _ => by ring
        _ ≤ _ := Finset.sum_le_sum fun c hc => mul_le_mul_of_nonneg_left (step c hc).1 (levelProb_nonneg (hq l) _ _ _)
    · calc _ ≤ ∑ c ∈ levelOutcomes p, levelProb (q l) (thr l) start p c * (β ^ (i + 1) * c.getD (j / 2 ^ (i + 1)) 0) :=
          Finset.sum_le_sum fun c hc => mul_le_mul_of_nonneg_left (step c hc).2 (levelProb_nonneg (hq l) _ _ _)
        _ = β ^ (i + 1) * ∑ c ∈ levelOutcomes p, levelProb (q l) (thr l) start p c * c.getD (j / 2 ^ (i + 1)) 0 := by
          rw [Finset.mul_sum]; exact Finset.sum_congr rfl fun c _ => by ring
        _ ≤ β ^ (i + 1) * (β * p.getD (j / 2 ^ (i + 1) / 2) 0) := mul_le_mul_of_nonneg_left h1.2 (by positivity)
        _ = _ := by ring

/-- given the levels before, the expected amount in a half of a box is its expected share -/
theorem levels_past (hq : ∀ l b t, (q l b t).Proper) {e : Nat} {sh : SplitLaw → ℝ}
    (one : ∀ (l : Nat) (start : Option ℝ) (p : List ℝ) (j : Nat), (∀ x ∈ p, 0 ≤ x) → j < p.length →
      ∑ c ∈ levelOutcomes p, levelProb (q l) (thr l) start p c * c.getD (2 * j + e) 0 = sh (lawOf (q l) (thr l) p j) * p.getD j 0) :
    ∀ (i L l : Nat) (start : Option ℝ) (p : List ℝ) (past : List (List ℝ)) (j : Nat), i < L → past.length = i → (∀ x ∈ p, 0 ≤ x) →
      j < ((p :: past).getD i []).length →
      ∑ ls ∈ outcomes L p, (if ls.take i = past then levelsProb q thr l start p ls * (ls.getD i []).getD (2 * j + e) 0 else 0) =
        sh (lawOf (q (l + i)) (thr (l + i)) ((p :: past).getD i []) j) * ((p :: past).getD i []).getD j 0 *
          ∑ ls ∈ outcomes L p, (if ls.take i = past then levelsProb q thr l start p ls else 0) := by
  intro i
  induction i with
  | zero =>
    intro L l start p past j hL hp0 hp hj
    obtain ⟨L, rfl⟩ : ∃ M, L = M + 1 := ⟨L - 1, by omega⟩
    have : past = [] := List.length_eq_zero_iff.1 hp0
    subst this
    simp only [List.take_zero, if_true, levels_one hq, mul_one, Nat.add_zero, List.getD_cons_zero] at hj ⊢
    rw [outcomes_sum]
    simp only [levelsProb, List.getD_cons_zero]
    have e1 : ∀ c, ∑ r ∈ outcomes L c, levelProb (q l) (thr l) start p c * levelsProb q thr (l + 1) (lastWeight p c start p.length) c r * c.getD (2 * j + e) 0 =
        levelProb (q l) (thr l) start p c * c.getD (2 * j + e) 0 := by
      intro c
      rw [← Finset.sum_mul, ← Finset.mul_sum, levels_one hq, mul_one]
    simp only [e1]
    exact one l start p j hp hj
  | succ i ih =>
    intro L l start p past j hL hp0 hp hj
    obtain ⟨L, rfl⟩ : ∃ M, L = M + 1 := ⟨L - 1, by omega⟩
    obtain ⟨c0, past, rfl⟩ : ∃ c r, past = c :: r := by
      cases past with
      | nil => cases hp0
      | cons c r => exact ⟨c, r, rfl⟩
    have hp0 : past.length = i := by simpa using hp0
    rw [outcomes_sum, outcomes_sum]
    simp only [levelsProb, List.getD_cons_succ, List.take_succ_cons] at hj ⊢
    have split : ∀ (D : ∀ (c : List ℝ) (r : List (List ℝ)), Decidable (c :: r.take i = c0 :: past)) (g : List ℝ → List (List ℝ) → ℝ),
        ∑ c ∈ levelOutcomes p, ∑ r ∈ outcomes L c, (if c :: r.take i = c0 :: past then g c r else 0) =
          if c0 ∈ levelOutcomes p then ∑ r ∈ outcomes L c0, (if r.take i = past then g c0 r else 0) else 0 := by
      intro D g
      have h1 : ∀ c ∈ levelOutcomes p, ∑ r ∈ outcomes L c, (if c :: r.take i = c0 :: past then g c r else 0) =
          if c = c0 then ∑ r ∈ outcomes L c0, (if r.take i = past then g c0 r else 0) else 0 := by
        intro c _
        split_ifs with hc
        · subst hc
          exact Finset.sum_congr rfl fun r _ => by simp
        · exact Finset.sum_eq_zero fun r _ => if_neg fun h => hc (List.cons.inj h).1
      rw [Finset.sum_congr rfl h1, Finset.sum_ite_eq']
    refine (split _ fun c r => levelProb (q l) (thr l) start p c * levelsProb q thr (l + 1) (lastWeight p c start p.length) c r * (r.getD i []).getD (2 * j + e) 0).trans
      (Eq.trans ?_ (congrArg (fun z => sh (lawOf (q (l + (i + 1))) (thr (l + (i + 1))) ((c0 :: past).getD i []) j) * ((c0 :: past).getD i []).getD j 0 * z)
        (split _ fun c r => levelProb (q l) (thr l) start p c * levelsProb q thr (l + 1) (lastWeight p c start p.length) c r).symm))
    split_ifs with hc
    · have h := ih L (l + 1) (lastWeight p c0 start p.length) c0 past j (by omega) hp0 (levelOutcomes_nonneg hc) hj
      rw [show l + 1 + i = l + (i + 1) by ring] at h
      have pull : ∀ f : List (List ℝ) → ℝ, ∑ r ∈ outcomes L c0, (if r.take i = past then levelProb (q l) (thr l) start p c0 * f r else 0) =
          levelProb (q l) (thr l) start p c0 * ∑ r ∈ outcomes L c0, (if r.take i = past then f r else 0) := by
        intro f
        rw [Finset.mul_sum]
        exact Finset.sum_congr rfl fun r _ => by split_ifs <;> ring
      simp only [mul_assoc (levelProb (q l) (thr l) start p c0)]
      rw [pull, pull, h]
      ring
    · rw [mul_zero]

theorem firstShare_add {q : SplitLaw} (hq : q.Proper) : q.firstShare + q.secondShare = 1 := by
  unfold SplitLaw.firstShare SplitLaw.secondShare
  have : ∑ c, q.w c * (1 - centre c) = 1 - ∑ c, q.w c * centre c := by
    have h := hq.2.2
    rw [eq_sub_iff_add_eq, ← Finset.sum_add_distrib]
    exact (Finset.sum_congr rfl fun c _ => by ring).trans h
  rw [this]
  ring

end

end Melodist
