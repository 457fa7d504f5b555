import Verif.Model.Interpolate
import Verif.Lemmas.Interp

/-!
# Lemmas for C114
-/

set_option linter.unusedSectionVars false

namespace Melodist

/-! ### sets of positions -/

theorem lt_takeWhile_iff (l : List Bool) (i : Nat) : i < (l.takeWhile id).length ↔ ∀ j, j ≤ i → l.getD j false = true := by
  induction l generalizing i with
  | nil =>
    simp only [List.takeWhile_nil, List.length_nil, Nat.not_lt_zero, false_iff]
    intro h
    simpa using h 0 (Nat.zero_le _)
  | cons b l ih =>
    cases b with
    | false =>
      simp only [List.takeWhile_cons, id, Bool.false_eq_true, if_false, List.length_nil, Nat.not_lt_zero, false_iff]
      intro h
      simpa using h 0 (Nat.zero_le _)
    | true =>
      simp only [List.takeWhile_cons, id, if_true, List.length_cons]
      cases i with
      | zero => simp
      | succ i =>
        rw [Nat.add_lt_add_iff_right, ih]
        constructor
        · intro h j hj
          cases j with
          | zero => rfl
          | succ j => simpa using h j (by omega)
        · intro h j hj
          simpa using h (j + 1) (by omega)

theorem limitInner_iff (inv : List Bool) (limit i : Nat) (hi : i < inv.length) :
    limitInner inv limit i = true ↔ ∀ j, j ≤ i → i - j ≤ limit → inv.getD j false = true := by
  unfold limitInner
  simp only [Bool.or_eq_true, Bool.and_eq_true, decide_eq_true_iff, List.all_eq_true, List.mem_range]
  constructor
  · rintro (⟨h1, h2⟩ | ⟨_, h2⟩) j hj hl
    · have := h2 (i - j) (by omega)
      rwa [show i - (i - j) = j by omega] at this
    · exact h2 j (by omega)
  · intro h
    by_cases hc : min limit inv.length ≤ i
    · left
      refine ⟨hc, fun j hj => h _ (by omega) (by omega)⟩
    · right
      exact ⟨by omega, fun j hj => h j (by omega) (by omega)⟩

theorem getD_reverse (inv : List Bool) (j : Nat) (hj : j < inv.length) : inv.reverse.getD j false = inv.getD (inv.length - 1 - j) false := by
  rw [List.getD_eq_getElem?_getD, List.getD_eq_getElem?_getD, List.getElem?_reverse hj]

theorem limitInner_reverse_iff (inv : List Bool) (limit i : Nat) (hi : i < inv.length) :
    limitInner inv.reverse limit (inv.length - 1 - i) = true ↔ ∀ j, i ≤ j → j < inv.length → j - i ≤ limit → inv.getD j false = true := by
  rw [limitInner_iff _ _ _ (by rw [List.length_reverse]; omega)]
  constructor
  · intro h j h1 h2 h3
    have := h (inv.length - 1 - j) (by omega) (by omega)
    rw [getD_reverse _ _ (by omega)] at this
    rwa [show inv.length - 1 - (inv.length - 1 - j) = j by omega] at this
  · intro h j h1 h2
    rw [getD_reverse _ _ (by omega)]
    exact h _ (by omega) (by omega) (by omega)

theorem leading_iff (inv : List Bool) (i : Nat) : i < leadingInvalid inv ↔ ∀ j, j ≤ i → inv.getD j false = true := lt_takeWhile_iff inv i

theorem trailing_iff (inv : List Bool) (i : Nat) (hi : i < inv.length) :
    inv.length - trailingInvalid inv ≤ i ↔ ∀ j, i ≤ j → j < inv.length → inv.getD j false = true := by
  have := lt_takeWhile_iff inv.reverse (inv.length - 1 - i)
  have hle : (inv.reverse.takeWhile id).length ≤ inv.length := by
    have := (List.takeWhile_sublist (p := id) (l := inv.reverse)).length_le
    rwa [List.length_reverse] at this
  unfold trailingInvalid
  rw [show inv.length - (inv.reverse.takeWhile id).length ≤ i ↔ inv.length - 1 - i < (inv.reverse.takeWhile id).length by omega, this]
  constructor
  · intro h j h1 h2
    have := h (inv.length - 1 - j) (by omega)
    rw [getD_reverse _ _ (by omega)] at this
    rwa [show inv.length - 1 - (inv.length - 1 - j) = j by omega] at this
  · intro h j h1
    rw [getD_reverse _ _ (by omega)]
    exact h _ (by omega) (by omega)

/-! ### np.interp -/

section
variable {K : Type} [Field K] [LinearOrder K] [IsStrictOrderedRing K]

theorem npInterp_between {l : List (K × XF K)} {p q : K × XF K} {r : List (K × XF K)} (hs : (l ++ p :: q :: r).Pairwise fun a b => a.1 < b.1) {x : K}
    (h1 : p.1 ≤ x) (h2 : x < q.1) : npInterp x (l ++ p :: q :: r) = (q.2 - p.2) / .fin (q.1 - p.1) * .fin (x - p.1) + p.2 := by
  induction l with
  | nil =>
    show npInterp x (p :: q :: r) = _
    rw [npInterp, if_neg (not_lt.2 h1), if_pos h2]
  | cons a l ih =>
    rw [List.cons_append, List.pairwise_cons] at hs
    have ih' := ih hs.2
    have ha : a.1 < p.1 := hs.1 p (by simp)
    rw [List.cons_append]
    cases l with
    | nil =>
      show npInterp x (a :: p :: q :: r) = _
      rw [npInterp, if_neg (not_lt.2 (ha.le.trans h1)), if_neg (not_lt.2 h1)]
      exact ih'
    | cons b l =>
      have hb : b.1 < p.1 := by
        have := hs.2
        rw [List.cons_append, List.pairwise_cons] at this
        exact this.1 p (by simp)
      show npInterp x (a :: b :: (l ++ p :: q :: r)) = _
      rw [npInterp, if_neg (not_lt.2 (ha.le.trans h1)), if_neg (not_lt.2 (hb.le.trans h1))]
      exact ih'

theorem npInterp_last {l : List (K × XF K)} {p : K × XF K} (hs : (l ++ [p]).Pairwise fun a b => a.1 < b.1) {x : K} (h1 : p.1 ≤ x) :
    npInterp x (l ++ [p]) = p.2 := by
  induction l with
  | nil => rfl
  | cons a l ih =>
    rw [List.cons_append, List.pairwise_cons] at hs
    have ih' := ih hs.2
    have ha : a.1 < p.1 := hs.1 p (by simp)
    rw [List.cons_append]
    cases l with
    | nil =>
      show npInterp x (a :: p :: []) = _
      rw [npInterp, if_neg (not_lt.2 (ha.le.trans h1)), if_neg (not_lt.2 h1)]
      exact ih'
    | cons b l =>
      have hb : b.1 < p.1 := by
        have := hs.2
        rw [List.cons_append, List.pairwise_cons] at this
        exact this.1 p (by simp)
      show npInterp x (a :: b :: (l ++ [p])) = _
      rw [npInterp, if_neg (not_lt.2 (ha.le.trans h1)), if_neg (not_lt.2 (hb.le.trans h1))]
      exact ih'

theorem npInterp_first {p : K × XF K} {r : List (K × XF K)} {x : K} (h1 : x < p.1) : npInterp x (p :: r) = p.2 := by
  cases r with
  | nil => rfl
  | cons q r => rw [npInterp, if_pos h1]

/-! ### the valid cells around a missing one -/

/-- the valid cells -/
def validCells (xs : List (K × XF K)) : List (K × XF K) := xs.filter fun p => !p.2.isNan

theorem validCells_nan {xs : List (K × XF K)} (h : ∀ p ∈ xs, p.2 = .nan) : validCells xs = [] := by
  unfold validCells
  rw [List.filter_eq_nil_iff]
  intro p hp
  rw [h p hp]
  simp

theorem split_at {α : Type} {l : List α} {i : Nat} {x : α} (h : l[i]? = some x) : l = l.take i ++ x :: l.drop (i + 1) := by
  obtain ⟨hi, rfl⟩ := List.getElem?_eq_some_iff.1 h
  rw [← List.drop_eq_getElem_cons hi, List.take_append_drop]

theorem mem_slice {α : Type} {l : List α} {a b : Nat} {x : α} (h : x ∈ (l.take b).drop a) : ∃ i, a ≤ i ∧ i < b ∧ l[i]? = some x := by
  obtain ⟨j, hj, rfl⟩ := List.getElem_of_mem h
  rw [List.length_drop, List.length_take] at hj
  refine ⟨a + j, by omega, by omega, ?_⟩
  rw [List.getElem_drop, List.getElem_take, List.getElem?_eq_getElem (by omega)]

theorem validCells_append (l r : List (K × XF K)) : validCells (l ++ r) = validCells l ++ validCells r := List.filter_append ..
theorem validCells_cons {p : K × XF K} (h : p.2.isNan = false) (r : List (K × XF K)) : validCells (p :: r) = p :: validCells r := by
  unfold validCells
  rw [List.filter_cons, h]
  rfl

theorem validCells_both {xs : List (K × XF K)} {p q : Nat} {P Q : K × XF K} (hpq : p < q) (hp : xs[p]? = some P) (hq : xs[q]? = some Q)
    (vp : P.2.isNan = false) (vq : Q.2.isNan = false) (hn : ∀ i, p < i → i < q → ∀ c, xs[i]? = some c → c.2 = .nan) :
    validCells xs = validCells (xs.take p) ++ P :: Q :: validCells (xs.drop (q + 1)) := by
  have hp' : (xs.take q)[p]? = some P := by rw [List.getElem?_take_of_lt hpq]; exact hp
  conv_lhs => rw [split_at hq, split_at hp']
  rw [validCells_append, validCells_append, validCells_cons vp, validCells_cons vq, List.take_take, Nat.min_eq_left hpq.le]
  have : validCells ((xs.take q).drop (p + 1)) = [] := by
    apply validCells_nan
    intro c hc
    obtain ⟨i, h1, h2, h3⟩ := mem_slice hc
    exact hn i (by omega) h2 c h3
  rw [this, List.append_assoc]
  rfl

theorem validCells_prev {xs : List (K × XF K)} {p : Nat} {P : K × XF K} (hp : xs[p]? = some P) (vp : P.2.isNan = false)
    (hn : ∀ i, p < i → ∀ c, xs[i]? = some c → c.2 = .nan) : validCells xs = validCells (xs.take p) ++ [P] := by
  conv_lhs => rw [split_at hp]
  rw [validCells_append, validCells_cons vp]
  have : validCells (xs.drop (p + 1)) = [] := by
    apply validCells_nan
    intro c hc
    obtain ⟨j, hj, rfl⟩ := List.getElem_of_mem hc
    rw [List.length_drop] at hj
    rw [List.getElem_drop]
    exact hn (p + 1 + j) (by omega) _ (List.getElem?_eq_getElem (by omega))
  rw [this]

theorem validCells_next {xs : List (K × XF K)} {q : Nat} {Q : K × XF K} (hq : xs[q]? = some Q) (vq : Q.2.isNan = false)
    (hn : ∀ i, i < q → ∀ c, xs[i]? = some c → c.2 = .nan) : validCells xs = Q :: validCells (xs.drop (q + 1)) := by
  conv_lhs => rw [split_at hq]
  rw [validCells_append, validCells_cons vq]
  have : validCells (xs.take q) = [] := by
    apply validCells_nan
    intro c hc
    obtain ⟨j, hj, rfl⟩ := List.getElem_of_mem hc
    rw [List.length_take] at hj
    rw [List.getElem_take]
    exact hn j (by omega) _ (List.getElem?_eq_getElem (by omega))
  rw [this]
  rfl

theorem validCells_sorted {xs : List (K × XF K)} (h : xs.Pairwise fun a b => a.1 < b.1) : (validCells xs).Pairwise fun a b => a.1 < b.1 :=
  h.sublist List.filter_sublist

/-- a cell of the result -/
theorem interpolate1d_getElem? (limit : Option Nat) (direction : LimitDirection) (area : Option LimitArea) (xs : List (K × XF K)) {k : Nat} {c : K × XF K}
    (hk : xs[k]? = some c) :
    (interpolate1d limit direction area xs)[k]? = some (if c.2.isNan then
      (if validCells xs = [] then .nan
       else if preserveNans (xs.map fun p => p.2.isNan) limit direction area k then .nan else npInterp c.1 (validCells xs)) else c.2) := by
  unfold interpolate1d
  dsimp only
  obtain ⟨hl, rfl⟩ := List.getElem?_eq_some_iff.1 hk
  by_cases h : validCells xs = [] ∨ (validCells xs).length = xs.length
  · have h' := h
    unfold validCells at h'
    rw [if_pos h', List.getElem?_map, hk, Option.map_some]
    congr 1
    rcases h with h | h
    · rw [if_pos h]
      have : xs[k].2.isNan = true := by
        have := List.filter_eq_nil_iff.1 h xs[k] (List.getElem_mem hl)
        simpa using this
      rw [if_pos this]
      exact (XF.isNan_iff _).1 this
    · have := (List.length_filter_eq_length_iff.1 h) xs[k] (List.getElem_mem hl)
      rw [if_neg (by simpa using this)]
  · have h' := h
    unfold validCells at h'
    rw [if_neg h', List.getElem?_zipWith, hk, List.getElem?_range hl]
    rw [not_or] at h
    rw [if_neg h.1]
    rfl

theorem interpolate1d_length (limit : Option Nat) (direction : LimitDirection) (area : Option LimitArea) (xs : List (K × XF K)) :
    (interpolate1d limit direction area xs).length = xs.length := by
  unfold interpolate1d
  dsimp only
  split
  · rw [List.length_map]
  · rw [List.length_zipWith, List.length_range, Nat.min_self]

end

end Melodist
