import Verif.Lemmas.Aggregate
import Verif.Spec.Precip

/-!
# Helper lemmas: the statistics are relative frequencies
-/

set_option linter.unusedSectionVars false

namespace Melodist
open Spec

variable {K : Type} [Field K] [LinearOrder K] [IsStrictOrderedRing K]

theorem weightClass_iff (w : K) (k : Fin 7) : weightClass w = some k ↔ classLimit k.castSucc < w ∧ w ≤ classLimit k.succ := by
  have e : ∀ k : Fin 7, (wlower k < w ∧ w ≤ wupper k) ↔ (classLimit k.castSucc < w ∧ w ≤ classLimit k.succ) := by
    intro k
    rcases fin7_cases k with rfl | rfl | rfl | rfl | rfl | rfl | rfl <;> simp [wlower, wupper, classLimit] <;> norm_num
  rw [← e]
  unfold weightClass
  constructor
  · intro h
    have := List.find?_some h
    simpa using this
  · intro h
    cases hf : (List.finRange 7).find? fun k : Fin 7 => decide (wlower k < w ∧ w ≤ wupper k) with
    | none =>
      rw [List.find?_eq_none] at hf
      have := hf k (List.mem_finRange k)
      simp [h] at this
    | some q =>
      have hq : wlower q < w ∧ w ≤ wupper q := by simpa using List.find?_some hf
      congr 1
      by_contra hne
      rcases fin7_cases k with rfl | rfl | rfl | rfl | rfl | rfl | rfl <;>
        rcases fin7_cases q with rfl | rfl | rfl | rfl | rfl | rfl | rfl <;>
        first
        | exact hne rfl
        | (simp [wlower, wupper] at h hq
           obtain ⟨a1, a2⟩ := h
           obtain ⟨b1, b2⟩ := hq
           linarith)

/-- effect of one box on the counters, finite non-negative values -/
theorem aggStep_counts {mv x y : K} (hx : 0 ≤ x) (hy : 0 ≤ y) (ty : Option BoxType) (c : AggCounts) (b : Fin 2) (t : Fin 4) :
    (aggStep mv (.fin x) (.fin y) ty c).nb b t = c.nb b t +
      (if 0 < x + y ∧ intensity mv (x + y) = b ∧ aggCol ty = t ∧ True then 1 else 0) ∧
    (aggStep mv (.fin x) (.fin y) ty c).p01 b t = c.p01 b t +
      (if 0 < x + y ∧ intensity mv (x + y) = b ∧ aggCol ty = t ∧ (x = 0 ∧ 0 < y) then 1 else 0) ∧
    (aggStep mv (.fin x) (.fin y) ty c).p10 b t = c.p10 b t +
      (if 0 < x + y ∧ intensity mv (x + y) = b ∧ aggCol ty = t ∧ (0 < x ∧ y = 0) then 1 else 0) ∧
    (aggStep mv (.fin x) (.fin y) ty c).pxx b t = c.pxx b t +
      (if 0 < x + y ∧ intensity mv (x + y) = b ∧ aggCol ty = t ∧ (0 < x ∧ 0 < y) then 1 else 0) ∧
    (aggStep mv (.fin x) (.fin y) ty c).nbxx b t = c.nbxx b t +
      (if 0 < x + y ∧ intensity mv (x + y) = b ∧ aggCol ty = t ∧ (0 < x ∧ 0 < y) then 1 else 0) ∧
    ∀ k, (aggStep mv (.fin x) (.fin y) ty c).wxx k b t = c.wxx k b t +
      (if 0 < x + y ∧ intensity mv (x + y) = b ∧ aggCol ty = t ∧
        (0 < x ∧ 0 < y ∧ classLimit k.castSucc < x / (x + y) ∧ x / (x + y) ≤ classLimit k.succ) then 1 else 0) := by
  unfold aggStep
  simp only [XF.fin_add_fin, XF.lt_fin, XF.feq_fin]
  by_cases hpos : 0 < x + y
  · rw [if_pos hpos]
    have hint : (if mv < x + y then (1 : Fin 2) else 0) = intensity mv (x + y) := rfl
    rw [hint]
    generalize intensity mv (x + y) = ba
    generalize aggCol ty = tt
    have hb : (b = ba ∧ t = tt) ↔ (ba = b ∧ tt = t) := by constructor <;> rintro ⟨rfl, rfl⟩ <;> simp
    rcases hx.lt_or_eq with hx | rfl <;> rcases hy.lt_or_eq with hy | rfl
    · have n1 : ¬ y = 0 := hy.ne'
      have n2 : ¬ x = 0 := hx.ne'
      have hw0 : 0 < x / (x + y) := by positivity
      have hw1 : x / (x + y) ≤ 1 := by rw [div_le_one hpos]; linarith
      obtain ⟨k, hk⟩ := weightClass_some hw0 hw1
      simp only [hx, hy, n1, n2, and_true, true_and, and_false, false_and, if_false, if_true, hk, Mat24.bump_apply, hb, hpos, add_zero,
        true_and, and_self]
      intro q
      have hiff := weightClass_iff (x / (x + y)) q
      rw [hk] at hiff
      by_cases hq : q = k
      · subst hq
        simp only [if_true, Mat24.bump_apply, hb, hiff.1 rfl, and_self, and_true]
      · have h2 : ¬ (classLimit q.castSucc < x / (x + y) ∧ x / (x + y) ≤ classLimit q.succ) := by
          rw [← hiff]; intro h; cases h; exact hq rfl
        simp only [hq, h2, if_false, and_false, add_zero]
    · simp [hx, hx.ne', Mat24.bump_apply, hb]
    · simp [hy, hy.ne', Mat24.bump_apply, hb]
    · simp at hpos
  · rw [if_neg hpos]
    simp [hpos]

/-- the counters after all boxes of a list of box numbers -/
theorem aggCount_counts {mv : K} (x : Nat → K) (hx : ∀ i, 0 ≤ x i) (ty : Nat → Option BoxType) : ∀ (js : List Nat) (c : AggCounts) (b : Fin 2) (t : Fin 4),
    let c' := aggCount mv (js.map fun j => (.fin (x (2 * j)), .fin (x (2 * j + 1)))) (js.map ty) c
    let cnt := fun cond : Nat → Prop => fun [DecidablePred cond] =>
      (js.filter fun j => decide (0 < box x j ∧ intensity mv (box x j) = b ∧ aggCol (ty j) = t ∧ cond j)).length
    c'.nb b t = c.nb b t + cnt (fun _ => True) ∧
    c'.p01 b t = c.p01 b t + cnt (fun j => x (2 * j) = 0 ∧ 0 < x (2 * j + 1)) ∧
    c'.p10 b t = c.p10 b t + cnt (fun j => 0 < x (2 * j) ∧ x (2 * j + 1) = 0) ∧
    c'.pxx b t = c.pxx b t + cnt (fun j => 0 < x (2 * j) ∧ 0 < x (2 * j + 1)) ∧
    c'.nbxx b t = c.nbxx b t + cnt (fun j => 0 < x (2 * j) ∧ 0 < x (2 * j + 1)) ∧
    ∀ k, c'.wxx k b t = c.wxx k b t + cnt (fun j => 0 < x (2 * j) ∧ 0 < x (2 * j + 1) ∧
      classLimit k.castSucc < x (2 * j) / (x (2 * j) + x (2 * j + 1)) ∧ x (2 * j) / (x (2 * j) + x (2 * j + 1)) ≤ classLimit k.succ)
  | [], c, b, t => by simp [aggCount]
  | j :: js, c, b, t => by
    intro c' cnt
    obtain ⟨h1, h2, h3, h4, h5, h6⟩ := aggCount_counts x hx ty js
      (aggStep mv (.fin (x (2 * j))) (.fin (x (2 * j + 1))) (ty j) c) b t
    obtain ⟨g1, g2, g3, g4, g5, g6⟩ := aggStep_counts (mv := mv) (hx (2 * j)) (hx (2 * j + 1)) (ty j) c b t
    have hl : ∀ (P : Nat → Bool), ((j :: js).filter P).length = (if P j = true then 1 else 0) + (js.filter P).length := by
      intro P
      cases hP : P j <;> simp [List.filter_cons, hP, Nat.add_comm]
    have hc' : c' = aggCount mv (js.map fun j => (.fin (x (2 * j)), .fin (x (2 * j + 1)))) (js.map ty)
        (aggStep mv (.fin (x (2 * j))) (.fin (x (2 * j + 1))) (ty j) c) := rfl
    simp only [cnt, hl, hc', decide_eq_true_eq]
    refine ⟨?_, ?_, ?_, ?_, ?_, fun k => ?_⟩
    · rw [h1, g1, add_assoc]; rfl
    · rw [h2, g2, add_assoc]; rfl
    · rw [h3, g3, add_assoc]; rfl
    · rw [h4, g4, add_assoc]; rfl
    · rw [h5, g5, add_assoc]; rfl
    · rw [h6 k, g6 k, add_assoc]; rfl

/-- box types, elementwise -/
theorem aggBoxTypes_get : ∀ {l : List (XF K)} {prev : Option (XF K)} {ts : List (Option BoxType)}, aggBoxTypes prev l = .ok ts →
    ts.length = l.length ∧ ∀ (j : Nat) (v : XF K), l[j]? = some v →
      ∃ t, ts[j]? = some t ∧ aggBoxType (if j = 0 then prev else l[j - 1]?) v l[j + 1]? = .ok t
  | [], prev, ts, h => by
    unfold aggBoxTypes at h; cases h; simp
  | v :: l, prev, ts, h => by
    unfold aggBoxTypes at h
    obtain ⟨t, ht, h⟩ := Except.bind_ok h
    obtain ⟨ts', hts, h⟩ := Except.bind_ok h
    cases h
    obtain ⟨h1, h2⟩ := aggBoxTypes_get hts
    refine ⟨by simp [h1], ?_⟩
    intro j w hj
    cases j with
    | zero =>
      simp at hj
      subst hj
      refine ⟨t, rfl, ?_⟩
      simpa [← List.head?_eq_getElem?] using ht
    | succ j =>
      obtain ⟨t', e1, e2⟩ := h2 j w (by simpa using hj)
      refine ⟨t', by simpa using e1, ?_⟩
      cases j with
      | zero => simpa using e2
      | succ j => simpa using e2

/-- box types of non-negative boxes -/
theorem aggBoxType_kind {x : Nat → K} (hx : ∀ i, 0 ≤ x i) {m j : Nat} (hw : 0 < box x j) 
    {t : Option BoxType} {prev next : Option (XF K)} (hp : prev = if j = 0 then none else some (.fin (box x (j - 1))))
    (hn : next = if j + 1 < m then some (.fin (box x (j + 1))) else none)
    (h : aggBoxType prev (.fin (box x j)) next = .ok t) : aggCol t = boxKind x m j := by
  have hb : ∀ i, 0 ≤ box x i := fun i => add_nonneg (hx _) (hx _)
  unfold aggBoxType at h
  rw [if_pos (by simpa using hw)] at h
  subst hp; subst hn
  unfold boxKind
  by_cases h0 : j = 0
  · subst h0
    by_cases hm1 : 0 + 1 < m
    · simp only [if_pos hm1, if_true] at h
      injection h with h
      subst h
      by_cases hnx : 0 < box x (0 + 1)
      · simp [hnx, hm1, aggCol, BoxType.col] at *
      · simp [hnx, aggCol, BoxType.col] at *
    · simp only [if_neg hm1, if_true] at h
      cases h
  · have hj0 : 0 < j := by omega
    by_cases hm1 : j + 1 < m
    · simp only [if_pos hm1, if_neg h0] at h
      injection h with h
      subst h
      rcases (hb (j - 1)).lt_or_eq with a | a <;> rcases (hb (j + 1)).lt_or_eq with b | b
      · simp [a, b, a.ne', b.ne', hj0, hm1, aggCol, BoxType.col]
      · simp [a, ← b, a.ne', hj0, hm1, aggCol, BoxType.col]
      · simp [← a, b, b.ne', hj0, hm1, aggCol, BoxType.col]
      · simp [← a, ← b, hj0, hm1, aggCol, BoxType.col]
    · simp only [if_neg hm1, if_neg h0] at h
      injection h with h
      subst h
      by_cases hpv : 0 < box x (j - 1)
      · simp [hpv, hj0, hm1, aggCol, BoxType.col]
      · simp [hpv, hj0, hm1, aggCol, BoxType.col]

theorem valuePairs_range (x : Nat → K) (n : Nat) : valuePairs ((List.range n).map fun i => XF.fin (x i)) =
    (List.range (n / 2)).map fun j => (XF.fin (x (2 * j)), XF.fin (x (2 * j + 1))) := by
  apply List.ext_getElem?
  intro j
  by_cases hj : j < n / 2
  · rw [valuePairs_getElem? _ j (.fin (x (2 * j))) (.fin (x (2 * j + 1)))]
    · simp [hj]
    · have : 2 * j < n := by omega
      simp [this]
    · have : 2 * j + 1 < n := by omega
      simp [this]
  · rw [List.getElem?_eq_none (by rw [valuePairs_length]; simp; omega), List.getElem?_eq_none (by simp; omega)]

theorem boxes_range {data : Series (XF K)} {x : Nat → K} {n : Nat} (hd : data.values = (List.range n).map fun i => XF.fin (x i)) :
    (pairSums data).values = (List.range (n / 2)).map fun j => XF.fin (box x j) := by
  rw [pairSums_values, hd, valuePairs_range]
  simp [box]

/-- the number of wet boxes of a class with a condition on the two values -/
theorem aggregate_counts [FloorRing K] {data : Series (XF K)} {x : Nat → K} {n : Nat} (hd : data.values = (List.range n).map fun i => XF.fin (x i))
    (hx : ∀ i, 0 ≤ x i) {types : List (Option BoxType)} (ht : aggBoxTypes none (pairSums data).values = .ok types) (mv : K) (b : Fin 2) (t : Fin 4) :
    let c := aggCount mv (valuePairs data.values) types {}
    let N := boxCount x (n / 2) mv b t
    c.nb b t = N (fun _ _ => True) ∧ c.p01 b t = N (fun u v => u = 0 ∧ 0 < v) ∧ c.p10 b t = N (fun u v => 0 < u ∧ v = 0) ∧
    c.pxx b t = N (fun u v => 0 < u ∧ 0 < v) ∧ c.nbxx b t = N (fun u v => 0 < u ∧ 0 < v) ∧
    ∀ k : Fin 7, c.wxx k b t = N (fun u v => 0 < u ∧ 0 < v ∧ classLimit k.castSucc < u / (u + v) ∧ u / (u + v) ≤ classLimit k.succ) := by
  intro c N
  have hbx := boxes_range hd
  obtain ⟨hl, hg⟩ := aggBoxTypes_get ht
  rw [hbx] at hl hg
  have htypes : types = (List.range (n / 2)).map fun j => types.getD j none := by
    apply List.ext_getElem?
    intro j
    by_cases hj : j < n / 2
    · have : j < types.length := by simpa [hl] using hj
      simp [hj, this]
    · rw [List.getElem?_eq_none (by simpa [hl] using hj), List.getElem?_eq_none (by simpa using hj)]
  have hkind : ∀ j < n / 2, 0 < box x j → aggCol (types.getD j none) = boxKind x (n / 2) j := by
    intro j hj hw
    obtain ⟨ty, h1, h2⟩ := hg j (.fin (box x j)) (by simp [hj])
    have e : types.getD j none = ty := by simp [List.getD, h1]
    rw [e]
    refine aggBoxType_kind hx hw ?_ ?_ h2
    · by_cases h0 : j = 0
      · simp [h0]
      · have : j - 1 < n / 2 := by omega
        simp [h0, this]
    · by_cases h1 : j + 1 < n / 2
      · simp [h1]
      · rw [List.getElem?_eq_none (by simpa using h1), if_neg h1]
  have hcnt : ∀ (cond : K → K → Prop) [∀ u v, Decidable (cond u v)],
      ((List.range (n / 2)).filter fun j => decide (0 < box x j ∧ intensity mv (box x j) = b ∧ aggCol (types.getD j none) = t ∧
        cond (x (2 * j)) (x (2 * j + 1)))).length = boxCount x (n / 2) mv b t cond := by
    intro cond _
    unfold boxCount
    congr 1
    apply List.filter_congr
    intro j hj
    have hj : j < n / 2 := by simpa using hj
    by_cases hw : 0 < box x j
    · rw [hkind j hj hw]
    · simp [hw]
  have key := aggCount_counts (mv := mv) x hx (fun j => types.getD j none) (List.range (n / 2)) {} b t
  simp only [← valuePairs_range, ← htypes, ← hd] at key
  obtain ⟨h1, h2, h3, h4, h5, h6⟩ := key
  refine ⟨?_, ?_, ?_, ?_, ?_, fun k => ?_⟩
  · exact h1.trans ((Nat.zero_add _).trans (hcnt fun _ _ => True))
  · exact h2.trans ((Nat.zero_add _).trans (hcnt fun u v => u = 0 ∧ 0 < v))
  · exact h3.trans ((Nat.zero_add _).trans (hcnt fun u v => 0 < u ∧ v = 0))
  · exact h4.trans ((Nat.zero_add _).trans (hcnt fun u v => 0 < u ∧ 0 < v))
  · exact h5.trans ((Nat.zero_add _).trans (hcnt fun u v => 0 < u ∧ 0 < v))
  · exact (h6 k).trans ((Nat.zero_add _).trans (hcnt fun u v => 0 < u ∧ 0 < v ∧ classLimit k.castSucc < u / (u + v) ∧ u / (u + v) ≤ classLimit k.succ))

end Melodist
