import Verif.Spec.CascadeIndep
import Verif.Props.CascadeMean

/-!
# Independence of the parts of a record on both sides of a dry day
-/

set_option linter.unusedSectionVars false

namespace Melodist
open Spec MeasureTheory ProbabilityTheory

noncomputable section

/-- factor of box `j` in the probability of a level -/
def boxTerm (q : Fin 2 → Fin 4 → SplitLaw) (thr : XF ℝ) (p c : List ℝ) (j : Nat) : ℝ :=
  splitProbProper (q (if XF.lt thr (.fin (p.getD j 0)) then 1 else 0) (posType p j)) (p.getD j 0) (c.getD (2 * j) 0) (c.getD (2 * j + 1) 0)

theorem getD_zero {z : List ℝ} (hz : ∀ x ∈ z, x = 0) (i : Nat) : z.getD i 0 = 0 := by
  by_cases h : i < z.length
  · rw [List.getD_eq_getElem _ _ h]; exact hz _ (List.getElem_mem h)
  · rw [List.getD_eq_default _ _ (by omega)]

theorem boxTerm_dry {q : Fin 2 → Fin 4 → SplitLaw} {thr : XF ℝ} {p c : List ℝ} {j : Nat} (h : p.getD j 0 = 0) (h1 : c.getD (2 * j) 0 = 0)
    (h2 : c.getD (2 * j + 1) 0 = 0) : boxTerm q thr p c j = 1 := by
  unfold boxTerm
  rw [h, h1, h2]
  simp [splitProbProper]

theorem boxTerm_split (q : Fin 2 → Fin 4 → SplitLaw) (thr : XF ℝ) {a z b ca cz cb : List ℝ} (hz : ∀ x ∈ z, x = 0) (hz0 : 0 < z.length) (hcz : ∀ x ∈ cz, x = 0)
    (h1 : ca.length = 2 * a.length) (h2 : cz.length = 2 * z.length) :
    ∏ j ∈ Finset.range (a ++ z ++ b).length, boxTerm q thr (a ++ z ++ b) (ca ++ cz ++ cb) j =
      (∏ j ∈ Finset.range (a ++ z).length, boxTerm q thr (a ++ z) (ca ++ cz) j) * ∏ j ∈ Finset.range (z ++ b).length, boxTerm q thr (z ++ b) (cz ++ cb) j := by
  have e1 : (a ++ z ++ b).length = (a ++ z).length + b.length := by simp; omega
  have e2 : (z ++ b).length = z.length + b.length := by simp
  rw [e1, e2, Finset.prod_range_add, Finset.prod_range_add]
  have hd : ∏ j ∈ Finset.range z.length, boxTerm q thr (z ++ b) (cz ++ cb) j = 1 := by
    refine Finset.prod_eq_one fun j hj => ?_
    have hj := Finset.mem_range.1 hj
    refine boxTerm_dry ?_ ?_ ?_
    · rw [List.getD_append _ _ _ _ hj, getD_zero hz]
    · rw [List.getD_append _ _ _ _ (by omega), getD_zero hcz]
    · rw [List.getD_append _ _ _ _ (by omega), getD_zero hcz]
  rw [hd, one_mul]
  congr 1
  · refine Finset.prod_congr rfl fun j hj => ?_
    have hj : j < a.length + z.length := by simpa using hj
    by_cases hja : j < a.length
    · have g : ∀ i < a.length + z.length, (a ++ z ++ b).getD i 0 = (a ++ z).getD i 0 := fun i hi => List.getD_append _ _ _ _ (by simpa using hi)
      have gc : ∀ i < 2 * (a.length + z.length), (ca ++ cz ++ cb).getD i 0 = (ca ++ cz).getD i 0 := fun i hi => List.getD_append _ _ _ _ (by simp; omega)
      unfold boxTerm posType
      rw [g j (by omega), g (j - 1) (by omega), g (j + 1) (by omega), gc _ (by omega), gc _ (by omega)]
    · rw [boxTerm_dry, boxTerm_dry]
      · rw [List.getD_append_right _ _ _ _ (by omega), getD_zero hz]
      · rw [List.getD_append_right _ _ _ _ (by omega), getD_zero hcz]
      · rw [List.getD_append_right _ _ _ _ (by omega), getD_zero hcz]
      · rw [List.append_assoc, List.getD_append_right _ _ _ _ (by omega), List.getD_append _ _ _ _ (by omega), getD_zero hz]
      · rw [List.append_assoc, List.getD_append_right _ _ _ _ (by omega), List.getD_append _ _ _ _ (by omega), getD_zero hcz]
      · rw [List.append_assoc, List.getD_append_right _ _ _ _ (by omega), List.getD_append _ _ _ _ (by omega), getD_zero hcz]
  · refine Finset.prod_congr rfl fun i _ => ?_
    have g : ∀ t, (a ++ z ++ b).getD (a.length + t) 0 = (z ++ b).getD t 0 := by
      intro t
      rw [List.append_assoc, List.getD_append_right _ _ _ _ (by omega), Nat.add_sub_cancel_left]
    have gc : ∀ t, (ca ++ cz ++ cb).getD (2 * a.length + t) 0 = (cz ++ cb).getD t 0 := by
      intro t
      rw [List.append_assoc, List.getD_append_right _ _ _ _ (by omega), h1, Nat.add_sub_cancel_left]
    have el : (a ++ z).length + i = a.length + (z.length + i) := by simp; omega
    rw [el]
    unfold boxTerm posType
    rw [show a.length + (z.length + i) - 1 = a.length + (z.length + i - 1) by omega, show a.length + (z.length + i) + 1 = a.length + (z.length + i + 1) by omega,
      show 2 * (a.length + (z.length + i)) = 2 * a.length + 2 * (z.length + i) by ring,
      show 2 * a.length + 2 * (z.length + i) + 1 = 2 * a.length + (2 * (z.length + i) + 1) by ring]
    rw [g, g, g, gc, gc]
    have c1 : 0 < a.length + (z.length + i) := by omega
    have c2 : 0 < z.length + i := by omega
    simp only [c1, c2, true_and]

/-- the levels with the parts `a` before and `b` after a dry day -/
def joinParts (L : Nat) (a b : List (List ℝ)) : List (List ℝ) := (List.range L).map fun l => a.getD l [] ++ List.replicate (2 ^ (l + 1)) 0 ++ b.getD l []

/-- the lengths of the levels of `k` days -/
def PartShape (L k : Nat) (a : List (List ℝ)) : Prop := a.length = L ∧ ∀ l < L, (a.getD l []).length = k * 2 ^ (l + 1)

theorem joinParts_length (L : Nat) (a b : List (List ℝ)) : (joinParts L a b).length = L := by simp [joinParts]

theorem joinParts_getD {L : Nat} (a b : List (List ℝ)) {l : Nat} (hl : l < L) :
    (joinParts L a b).getD l [] = a.getD l [] ++ List.replicate (2 ^ (l + 1)) 0 ++ b.getD l [] := by
  rw [List.getD_eq_getElem _ _ (by rw [joinParts_length]; exact hl)]
  simp [joinParts]

theorem daysPart_getD (a k : Nat) (ls : List (List ℝ)) (l : Nat) :
    (daysPart a k ls).getD l [] = ((ls.getD l []).drop (a * 2 ^ (l + 1))).take (k * 2 ^ (l + 1)) := by
  by_cases h : l < ls.length
  · rw [List.getD_eq_getElem _ _ (by simpa [daysPart] using h), List.getD_eq_getElem _ _ h]
    simp [daysPart]
  · rw [List.getD_eq_default _ _ (by simpa [daysPart] using h), List.getD_eq_default _ _ (by omega)]
    simp

theorem list_ext_getD {L : Nat} {a b : List (List ℝ)} (ha : a.length = L) (hb : b.length = L) (h : ∀ l < L, a.getD l [] = b.getD l []) : a = b := by
  apply List.ext_getElem (by omega)
  intro i h1 h2
  have := h i (by omega)
  rwa [List.getD_eq_getElem _ _ h1, List.getD_eq_getElem _ _ h2] at this

/-- levels of a run with a dry day `m`: parts of the right shape, zeros on the dry day -/
theorem levels_join {rnd : Nat → ℝ} {opts : CascOptions ℝ} {L : Nat} {p : List ℝ} {ls : List (List ℝ)} {m k : Nat} (hp : p.length = m + 1 + k)
    (hm : p[m]? = some 0) (h : levelLoop rnd opts L p {} = .ok ls) :
    PartShape L m (daysPart 0 m ls) ∧ PartShape L k (daysPart (m + 1) k ls) ∧ ls = joinParts L (daysPart 0 m ls) (daysPart (m + 1) k ls) := by
  have hl := levelLoop_length h
  have hb : ∀ l < L, BlockSplit (2 ^ (l + 1)) p (ls.getD l []) := by
    intro l hlL
    refine levelLoop_split h l _ ?_
    rw [List.getD_eq_getElem _ _ (by omega), List.getElem?_eq_getElem (by omega)]
  have hlen : ∀ l < L, (ls.getD l []).length = m * 2 ^ (l + 1) + 2 ^ (l + 1) + k * 2 ^ (l + 1) := by
    intro l hlL
    rw [(hb l hlL).length, hp]; ring
  refine ⟨⟨by simp [daysPart, hl], fun l hlL => ?_⟩, ⟨by simp [daysPart, hl], fun l hlL => ?_⟩, ?_⟩
  · rw [daysPart_getD, List.length_take, List.length_drop, hlen l hlL]
    rw [Nat.zero_mul, Nat.sub_zero, add_assoc]; exact min_eq_left (Nat.le_add_right _ _)
  · rw [daysPart_getD, List.length_take, List.length_drop, hlen l hlL]
    rw [Nat.add_mul, Nat.one_mul]; omega
  · refine list_ext_getD hl (joinParts_length _ _ _) fun l hlL => ?_
    rw [joinParts_getD _ _ hlL, daysPart_getD, daysPart_getD, Nat.zero_mul, List.drop_zero]
    have hz : ((ls.getD l []).drop (m * 2 ^ (l + 1))).take (2 ^ (l + 1)) = List.replicate (2 ^ (l + 1)) 0 := by
      obtain ⟨b1, b2⟩ := (hb l hlL).block hm
      rw [mul_comm] at b1 b2
      refine List.eq_replicate_iff.2 ⟨b1, fun x hx => ?_⟩
      have hnn : ∀ y ∈ ((ls.getD l []).drop (m * 2 ^ (l + 1))).take (2 ^ (l + 1)), 0 ≤ y := fun y hy =>
        (hb l hlL).nonneg y (List.mem_of_mem_drop (List.mem_of_mem_take hy))
      rw [max_self] at b2
      exact List.all_zero_of_le_zero_le_of_sum_eq_zero hnn b2 hx
    rw [← hz]
    have hd2 : ((ls.getD l []).drop ((m + 1) * 2 ^ (l + 1))).take (k * 2 ^ (l + 1)) = (ls.getD l []).drop ((m + 1) * 2 ^ (l + 1)) := by
      apply List.take_of_length_le
      rw [List.length_drop, hlen l hlL, Nat.add_mul, Nat.one_mul]; omega
    rw [hd2, Nat.add_mul, Nat.one_mul, ← List.drop_drop, List.append_assoc, List.take_append_drop, List.take_append_drop]

theorem joinParts_parts {L m k : Nat} {a b : List (List ℝ)} (ha : PartShape L m a) (hb : PartShape L k b) :
    daysPart 0 m (joinParts L a b) = a ∧ daysPart (m + 1) k (joinParts L a b) = b := by
  constructor
  · refine list_ext_getD (L := L) (by simp [daysPart, joinParts]) ha.1 fun l hl => ?_
    rw [daysPart_getD, joinParts_getD _ _ hl, Nat.zero_mul, List.drop_zero, List.append_assoc, ← ha.2 l hl, List.take_left]
  · refine list_ext_getD (L := L) (by simp [daysPart, joinParts]) hb.1 fun l hl => ?_
    rw [daysPart_getD, joinParts_getD _ _ hl]
    have : (m + 1) * 2 ^ (l + 1) = (a.getD l [] ++ List.replicate (2 ^ (l + 1)) (0 : ℝ)).length := by
      rw [List.length_append, List.length_replicate, ha.2 l hl]; ring
    rw [this, List.drop_left, ← hb.2 l hl, List.take_length]

end

end Melodist
