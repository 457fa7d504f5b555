import Verif.Lemmas.Humidity
import Mathlib.Data.List.Sort

/-!
# Helper lemmas: arithmetic between series with different labels
-/

set_option linter.unusedSectionVars false

namespace Melodist
open Spec

section
variable {K : Type}

/-- the value of a label, NaN if there is none -/
def Series.get (s : Series (XF K)) (t : Time) : XF K := (s.at? t).getD .nan

theorem at?_none_of_not_mem {V : Type} {s : Series V} {t : Time} (h : t ∉ s.index) : s.at? t = none := by
  unfold Series.at?
  rw [Option.map_eq_none_iff, List.find?_eq_none]
  intro r hr he
  exact h (List.mem_map.2 ⟨r, hr, by simpa using he⟩)

theorem get_of_not_mem {s : Series (XF K)} {t : Time} (h : t ∉ s.index) : s.get t = .nan := by
  unfold Series.get
  rw [at?_none_of_not_mem h]
  rfl

theorem get_of_mem : ∀ {s : Series (XF K)} (_ : s.index.Nodup) {r : Time × XF K} (_ : r ∈ s), s.get r.1 = r.2
  | q :: s, hs, r, hr => by
    rcases List.mem_cons.1 hr with rfl | hr
    · simp [Series.get, Series.at?]
    · have hne : q.1 ≠ r.1 := by
        intro e
        have := (List.nodup_cons.1 hs).1
        exact this (by rw [e]; exact List.mem_map.2 ⟨r, hr, rfl⟩)
      have := get_of_mem (s := s) (List.nodup_cons.1 hs).2 hr
      unfold Series.get Series.at? at this ⊢
      rw [List.find?_cons, show (q.1 == r.1) = false by simpa using hne]
      exact this

theorem get_map (I : List Time) (f : Time → XF K) (t : Time) : Series.get (I.map fun t => (t, f t)) t = if t ∈ I then f t else .nan := by
  induction I with
  | nil => rfl
  | cons a I ih =>
    unfold Series.get Series.at? at ih ⊢
    rw [List.map_cons, List.find?_cons]
    by_cases h : a = t
    · subst h; simp
    · rw [show (a == t) = false by simpa using h]
      simp only [List.mem_cons, Ne.symm h, false_or]
      exact ih

theorem get_zipWith (f : XF K → XF K → XF K) (h1 : ∀ x, f .nan x = .nan) : ∀ (a b : Series (XF K)), a.index = b.index → ∀ t,
    Series.get (List.zipWith (fun r q => (r.1, f r.2 q.2)) a b) t = f (a.get t) (b.get t)
  | [], [], _, t => by simp [Series.get, Series.at?, h1]
  | [], _ :: _, e, _ => by cases e
  | _ :: _, [], e, _ => by cases e
  | r :: a, q :: b, e, t => by
    have e1 : r.1 = q.1 := (List.cons.inj e).1
    have ih := get_zipWith f h1 a b (List.cons.inj e).2 t
    unfold Series.get Series.at? at ih ⊢
    rw [List.zipWith_cons_cons, List.find?_cons, List.find?_cons, List.find?_cons, ← e1]
    by_cases h : r.1 = t
    · simp [h]
    · rw [show (r.1 == t) = false by simpa using h]
      exact ih

/-- arithmetic between two series: the labels of both, and the operation for each label, with NaN for a label of only one series -/
theorem align_get (f : XF K → XF K → XF K) (h1 : ∀ x, f .nan x = .nan) {a b : Series (XF K)} (ha : a.index.Nodup)
    (hb : b.index.Pairwise (· < ·)) : ∃ r, Series.align f a b = .ok r ∧ r.index.Pairwise (· < ·) ∧
      (∀ t, t ∈ r.index ↔ t ∈ a.index ∨ t ∈ b.index) ∧ ∀ t, r.get t = f (a.get t) (b.get t) := by
  have hbn : b.index.Nodup := hb.imp fun h => ne_of_lt h
  unfold Series.align
  by_cases e : a.index = b.index
  · rw [if_pos e]
    have hi : Series.index (List.zipWith (fun r q => (r.1, f r.2 q.2)) a b) = b.index := by
      have hl : a.length = b.length := by
        have := congrArg List.length e
        simpa [Series.index] using this
      rw [← e]
      unfold Series.index
      rw [List.map_zipWith]
      apply List.ext_getElem
      · simp [hl]
      · intro k k1 k2
        simp
    refine ⟨_, rfl, ?_, ?_, get_zipWith f h1 a b e⟩
    · rw [hi]; exact hb
    · intro t
      rw [hi, e, or_self]
  · rw [if_neg e, if_pos ⟨ha, hbn⟩]
    set L := ((a.index ++ b.index).dedup.insertionSort (· ≤ ·)) with hL
    have hi : Series.index (L.map fun t => (t, f ((a.at? t).getD .nan) ((b.at? t).getD .nan))) = L := by
      unfold Series.index
      rw [List.map_map]
      exact List.map_id' _
    have hmem : ∀ t, t ∈ L ↔ t ∈ a.index ∨ t ∈ b.index := by
      intro t
      rw [hL, List.mem_insertionSort, List.mem_dedup, List.mem_append]
    refine ⟨_, rfl, ?_, ?_, ?_⟩
    · rw [hi]
      have s1 : L.Pairwise (· ≤ ·) := List.pairwise_insertionSort _ _
      have s2 : L.Nodup := (List.perm_insertionSort _ _).nodup_iff.2 (List.nodup_dedup _)
      exact (s1.and s2).imp fun h => lt_of_le_of_ne h.1 h.2
    · intro t
      rw [hi, hmem]
    · intro t
      rw [get_map L (fun t => f ((a.at? t).getD .nan) ((b.at? t).getD .nan))]
      by_cases ht : t ∈ L
      · rw [if_pos ht]
        rfl
      · rw [if_neg ht]
        have : a.get t = .nan := get_of_not_mem fun h => ht ((hmem t).2 (.inl h))
        rw [this, h1]

end

theorem mem_hourlyS_index {V : Type} (d0 : Int) (n : Nat) (f : Nat → Nat → V) (t : Time) :
    t ∈ Series.index (hourlyS d0 n f) ↔ ∃ i < n, ∃ h < 24, t = atHour (d0 + (i : Nat)) h := by
  rw [hourlyS_index, List.mem_map]
  constructor
  · rintro ⟨k, hk, rfl⟩
    have hk := List.mem_range.1 hk
    exact ⟨k / 24, by omega, k % 24, by omega, by unfold atHour; omega⟩
  · rintro ⟨i, hi, h, hh, rfl⟩
    exact ⟨24 * i + h, List.mem_range.2 (by omega), by unfold atHour; omega⟩

end Melodist
