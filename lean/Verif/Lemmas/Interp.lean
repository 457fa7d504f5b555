import Verif.Lemmas.Frame

set_option linter.unusedSectionVars false

namespace Melodist
open Spec

variable {K : Type} [Field K] [LinearOrder K]

theorem interpAux_length (limit : Nat) (before xs : List (XF K)) : (interpAux limit before xs).length = xs.length := by
  induction xs generalizing before with
  | nil => rfl
  | cons x xs ih => simp [interpAux, ih]

theorem interpAux_getElem (limit : Nat) (before xs : List (XF K)) (k : Nat) (hk : k < xs.length) :
    (interpAux limit before xs)[k]'(by rw [interpAux_length]; exact hk) =
      if xs[k].isNan then
        interpCell limit (nearestValid 0 ((xs.take k).reverse ++ before)) (nearestValid 0 (xs.drop (k + 1)))
      else xs[k] := by
  induction xs generalizing before k with
  | nil => simp at hk
  | cons x xs ih =>
    rcases k with _ | k
    · simp [interpAux]
    · have := ih (x :: before) k (by simpa using hk)
      simp only [interpAux, List.getElem_cons_succ, List.take_succ_cons, List.reverse_cons, List.drop_succ_cons,
        List.append_assoc, List.singleton_append]
      exact this

theorem nearestValid_none (l : List (XF K)) (m : Nat) (h : ∀ x ∈ l, x = .nan) : nearestValid m l = none := by
  induction l generalizing m with
  | nil => rfl
  | cons x l ih =>
    have := h x (by simp)
    subst this
    simp only [nearestValid, XF.isNan_nan, if_true]
    exact ih _ fun y hy => h y (by simp [hy])

theorem nearestValid_some (l : List (XF K)) (m j : Nat) (hj : j < l.length) (hv : l[j].isNan = false)
    (hn : ∀ i (hi : i < j), l[i]'(by omega) = .nan) : nearestValid m l = some (l[j], m + j + 1) := by
  induction l generalizing m j with
  | nil => simp at hj
  | cons x l ih =>
    rcases j with _ | j
    · simp only [List.getElem_cons_zero] at hv
      simp [nearestValid, hv]
    · have hx : x = .nan := hn 0 (by omega)
      subst hx
      simp only [nearestValid, XF.isNan_nan, if_true, List.getElem_cons_succ] at hv ⊢
      rw [ih (m + 1) j (by simpa using hj) hv]
      · congr 2; omega
      · intro i hi
        exact hn (i + 1) (by omega)

/-- the previous valid cell of position `k` is at `p` -/
theorem nearestValid_prev (xs : List (XF K)) (k p : Nat) (hk : k < xs.length) (hp : p < k) (hv : xs[p].isNan = false)
    (hn : ∀ i (_ : p < i) (hi : i < k), xs[i]'(by omega) = .nan) :
    nearestValid 0 ((xs.take k).reverse ++ []) = some (xs[p], k - p) := by
  have hlen : ((xs.take k).reverse).length = k := by simp; omega
  have hget : ∀ i (hi : i < k), ((xs.take k).reverse)[i]'(by omega) = xs[k - 1 - i]'(by omega) := by
    intro i hi
    rw [List.getElem_reverse, List.getElem_take]
    congr 1
    simp; omega
  rw [List.append_nil, nearestValid_some _ 0 (k - 1 - p) (by omega)]
  · rw [hget (k - 1 - p) (by omega)]
    have e : k - 1 - (k - 1 - p) = p := by omega
    simp only [e]
    congr 2; omega
  · rw [hget (k - 1 - p) (by omega)]
    have e : k - 1 - (k - 1 - p) = p := by omega
    simp only [e]
    exact hv
  · intro i hi
    rw [hget i (by omega)]
    exact hn _ (by omega) (by omega)

theorem nearestValid_prev_none (xs : List (XF K)) (k : Nat) (hk : k < xs.length)
    (hn : ∀ i (hi : i < k), xs[i]'(by omega) = .nan) :
    nearestValid 0 ((xs.take k).reverse ++ []) = none := by
  apply nearestValid_none
  intro x hx
  rw [List.append_nil, List.mem_reverse] at hx
  obtain ⟨i, hi, rfl⟩ := List.getElem_of_mem hx
  rw [List.length_take] at hi
  rw [List.getElem_take]
  exact hn i (by omega)

theorem nearestValid_next (xs : List (XF K)) (k q : Nat) (hq : q < xs.length) (hkq : k < q) (hv : xs[q].isNan = false)
    (hn : ∀ i (_ : k < i) (hi : i < q), xs[i]'(by omega) = .nan) :
    nearestValid 0 (xs.drop (k + 1)) = some (xs[q], q - k) := by
  have hget : ∀ i (hi : k + 1 + i < xs.length), (xs.drop (k + 1))[i]'(by rw [List.length_drop]; omega) = xs[k + 1 + i] := by
    intro i hi; rw [List.getElem_drop]
  rw [nearestValid_some _ 0 (q - k - 1) (by rw [List.length_drop]; omega)]
  · rw [hget _ (by omega)]
    have e : k + 1 + (q - k - 1) = q := by omega
    simp only [e]
    congr 2; omega
  · rw [hget _ (by omega)]
    have e : k + 1 + (q - k - 1) = q := by omega
    simp only [e]
    exact hv
  · intro i hi
    rw [hget _ (by omega)]
    exact hn _ (by omega) (by omega)

theorem nearestValid_next_none (xs : List (XF K)) (k : Nat) (hn : ∀ i (_ : k < i) (hi : i < xs.length), xs[i] = .nan) :
    nearestValid 0 (xs.drop (k + 1)) = none := by
  apply nearestValid_none
  intro x hx
  obtain ⟨i, hi, rfl⟩ := List.getElem_of_mem hx
  rw [List.length_drop] at hi
  rw [List.getElem_drop]
  exact hn _ (by omega) (by omega)

end Melodist
