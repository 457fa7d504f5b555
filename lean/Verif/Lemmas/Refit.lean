import Verif.Props.MeanCourse
import Verif.Lemmas.Temperature
import Mathlib.Tactic.IntervalCases

/-!
# Lemmas for C120: tables of monthly means of a complete hourly record
-/

set_option linter.unusedSectionVars false

namespace Melodist
open Spec

variable {K : Type} [Field K] [LinearOrder K] [IsStrictOrderedRing K]

/-- the days of the record in calendar month `m` -/
def daysIn (d0 : Int) (n : Nat) (m : Int) : List Nat := (List.range n).filter fun i : Nat => decide (monthOf (at00 (d0 + i)) = m)

theorem mem_daysIn {d0 : Int} {n : Nat} {m : Int} {i : Nat} : i ∈ daysIn d0 n m ↔ i < n ∧ monthOf (at00 (d0 + i)) = m := by
  simp [daysIn]

theorem block_filter (p : Prop) [Decidable p] {V : Type} (f : Nat → V) {h : Nat} (hh : h < 24) :
    ((List.range 24).filter fun k => decide (p ∧ k = h)).map f = if p then [f h] else [] := by
  by_cases hp : p
  · simp only [hp, true_and, if_true]
    have : (List.range 24).filter (fun k => decide (k = h)) = [h] := by
      clear f
      interval_cases h <;> decide
    rw [this]; rfl
  · simp [hp]

/-- the observations of month `m` and hour `h` in a complete record -/
theorem obsOf_hourlyS (d0 : Int) (n : Nat) (f : Nat → Nat → XF K) (m : Int) {h : Nat} (hh : h < 24) :
    obsOf (hourlyS d0 n f) m h = (daysIn d0 n m).map fun i => f i h := by
  induction n with
  | zero => simp [obsOf, hourlyS, daysIn]
  | succ n ih =>
    unfold obsOf daysIn at ih ⊢
    rw [hourlyS_append, List.filter_append, List.map_append, ih, List.range_succ (n := n), List.filter_append, List.map_append]
    congr 1
    rw [List.filter_map, List.map_map]
    have e : ((fun r : Int × XF K => decide (monthOf r.1 = m ∧ r.1 % 86400000000 / 3600000000 = (h : Int))) ∘
        fun k : Nat => (atHour (d0 + (n : Int)) k, f n k)) = fun k : Nat => decide (monthOf (atHour (d0 + (n : Int)) k) = m ∧ atHour (d0 + (n : Int)) k % 86400000000 / 3600000000 = (h : Int)) := rfl
    rw [e]
    have e2 : (List.range 24).filter (fun k : Nat => decide (monthOf (atHour (d0 + (n : Int)) k) = m ∧ atHour (d0 + (n : Int)) k % 86400000000 / 3600000000 = (h : Int))) =
        (List.range 24).filter fun k => decide (monthOf (at00 (d0 + (n : Int))) = m ∧ k = h) := by
      apply List.filter_congr
      intro k hk
      have hk := List.mem_range.1 hk
      have h1 : monthOf (atHour (d0 + (n : Int)) k) = monthOf (at00 (d0 + (n : Int))) := by rw [monthOf_atHour _ hk, monthOf_at00]
      have h2 : atHour (d0 + (n : Int)) k % 86400000000 / 3600000000 = (k : Int) := by unfold atHour; omega
      rw [h1, h2]
      simp
    rw [e2]
    have := block_filter (monthOf (at00 (d0 + (n : Int))) = m) (fun k => f n k) hh
    simp only [Function.comp_def]
    rw [this]
    by_cases hm : monthOf (at00 (d0 + (n : Int))) = m <;> simp [hm]

/-- sums over days that are either missing or follow the same course -/
theorem affine_days (f : Nat → Nat → XF K) (c : Nat → K) (l : List Nat)
    (hl : ∀ i ∈ l, (∀ h < 24, f i h = .nan) ∨ ∃ x y : K, 0 ≤ y ∧ ∀ h < 24, f i h = .fin (x + c h * y)) :
    ∃ (N : Nat) (X Y : K), 0 ≤ Y ∧ (∀ h < 24, (numbers (l.map fun i => f i h)).length = N ∧ (numbers (l.map fun i => f i h)).sum = X + c h * Y) ∧
      ((∃ i ∈ l, ∃ x y : K, 0 < y ∧ ∀ h < 24, f i h = .fin (x + c h * y)) → (∃ h₁ < 24, ∃ h₂ < 24, c h₁ ≠ c h₂) → 0 < N ∧ 0 < Y) := by
  induction l with
  | nil => exact ⟨0, 0, 0, le_refl _, fun h _ => by simp [numbers], by rintro ⟨i, hi, _⟩; cases hi⟩
  | cons i l ih =>
    obtain ⟨N, X, Y, h0, h1, h2⟩ := ih fun j hj => hl j (List.mem_cons_of_mem _ hj)
    rcases hl i List.mem_cons_self with hn | ⟨x, y, hy, hx⟩
    · refine ⟨N, X, Y, h0, fun h hh => ?_, ?_⟩
      · rw [List.map_cons, hn h hh, numbers_cons_nan]
        exact h1 h hh
      · rintro ⟨j, hj, x, y, hy, he⟩ hc
        rcases List.mem_cons.1 hj with rfl | hj
        · have := (hn 0 (by decide)).symm.trans (he 0 (by decide))
          cases this
        · exact h2 ⟨j, hj, x, y, hy, he⟩ hc
    · refine ⟨N + 1, x + X, y + Y, add_nonneg hy h0, fun h hh => ?_, ?_⟩
      · rw [List.map_cons, hx h hh, numbers_cons_fin, List.length_cons, List.sum_cons, (h1 h hh).1, (h1 h hh).2]
        exact ⟨rfl, by ring⟩
      · rintro ⟨j, hj, x', y', hy', he⟩ ⟨a, ha, b, hb, hab⟩
        refine ⟨Nat.succ_pos _, ?_⟩
        rcases List.mem_cons.1 hj with rfl | hj
        · have e1 := (hx a ha).symm.trans (he a ha)
          have e2 := (hx b hb).symm.trans (he b hb)
          injection e1 with e1
          injection e2 with e2
          have : (c a - c b) * (y - y') = 0 := by linear_combination e1 - e2
          rcases mul_eq_zero.1 this with h | h
          · exact absurd (sub_eq_zero.1 h) hab
          · have : y = y' := sub_eq_zero.1 h
            rw [this]
            exact add_pos_of_pos_of_nonneg hy' h0
        · exact add_pos_of_nonneg_of_pos hy (h2 ⟨j, hj, x', y', hy', he⟩ ⟨a, ha, b, hb, hab⟩).2

theorem hours_hourlyS {d0 : Int} {n : Nat} (hn : 0 < n) (f : Nat → Nat → XF K) (h : Nat) :
    ((h : Int) ∈ (meanDailyCourseByMonth (hourlyS d0 n f)).hours ↔ h < 24) ∧ ∀ k ∈ (meanDailyCourseByMonth (hourlyS d0 n f)).hours, ∃ j : Nat, j < 24 ∧ k = j := by
  constructor
  · unfold meanDailyCourseByMonth
    simp only [Bool.false_eq_true, if_false, List.mem_filter, List.mem_map, List.mem_range, List.any_eq_true, beq_iff_eq]
    constructor
    · rintro ⟨⟨k, hk, e⟩, _⟩; omega
    · intro hh
      refine ⟨⟨h, hh, rfl⟩, (atHour d0 h, f 0 h), ?_, hourOf_atHour d0 hh⟩
      unfold hourlyS
      rw [List.mem_map]
      refine ⟨h, List.mem_range.2 (by omega), ?_⟩
      rw [Nat.div_eq_of_lt hh, Nat.mod_eq_of_lt hh]
      simp
  · intro k hk
    unfold meanDailyCourseByMonth at hk
    simp only [Bool.false_eq_true, if_false, List.mem_filter, List.mem_map, List.mem_range] at hk
    obtain ⟨⟨j, hj, rfl⟩, _⟩ := hk
    exact ⟨j, hj, rfl⟩

theorem mem_hourlyS_val {d0 : Int} {n : Nat} {f : Nat → Nat → XF K} {r : Time × XF K} (hr : r ∈ hourlyS d0 n f) : ∃ i < n, ∃ h < 24, r = (atHour (d0 + (i : Nat)) h, f i h) := by
  unfold hourlyS at hr
  obtain ⟨k, hk, rfl⟩ := List.mem_map.1 hr
  have hk := List.mem_range.1 hk
  exact ⟨k / 24, by omega, k % 24, by omega, rfl⟩

/-- the raw means of a month whose days follow one course -/
theorem refit_raw {d0 : Int} {n : Nat} {f : Nat → Nat → XF K} {m : Int} {c : Nat → K}
    (hm : ∀ i < n, monthOf (at00 (d0 + (i : Nat))) = m → (∀ h < 24, f i h = .nan) ∨ ∃ x y : K, 0 ≤ y ∧ ∀ h < 24, f i h = .fin (x + c h * y))
    (hpos : ∃ i < n, monthOf (at00 (d0 + (i : Nat))) = m ∧ ∃ x y : K, 0 < y ∧ ∀ h < 24, f i h = .fin (x + c h * y))
    (hc : ∃ h₁ < 24, ∃ h₂ < 24, c h₁ ≠ c h₂) :
    ∃ X Y : K, 0 < Y ∧ ∀ h : Nat, h < 24 → (meanDailyCourseByMonth (hourlyS d0 n f)).val m h = .fin (X + c h * Y) := by
  obtain ⟨N, X, Y, h0, h1, h2⟩ := affine_days f c (daysIn d0 n m) fun i hi => hm i (mem_daysIn.1 hi).1 (mem_daysIn.1 hi).2
  obtain ⟨i, hi, him, hex⟩ := hpos
  obtain ⟨hN, hY⟩ := h2 ⟨i, mem_daysIn.2 ⟨hi, him⟩, hex⟩ hc
  have hN' : (0 : K) < N := by exact_mod_cast hN
  refine ⟨X / N, Y / N, div_pos hY hN', fun h hh => ?_⟩
  rw [raw_val_eq, obsOf_hourlyS d0 n f m hh, meanSkip_eq, (h1 h hh).1, (h1 h hh).2]
  · congr 1
    field_simp
  · intro x hx
    obtain ⟨j, hj, rfl⟩ := List.mem_map.1 hx
    rcases hm j (mem_daysIn.1 hj).1 (mem_daysIn.1 hj).2 with h | ⟨x, y, _, h⟩
    · rw [h _ hh]; trivial
    · rw [h _ hh]; trivial
  · intro e
    have := (h1 h hh).1
    rw [e] at this
    simp at this
    omega

/-- the normalised course of a month whose days follow one normalised course is that course -/
theorem refit_course {d0 : Int} {n : Nat} {f : Nat → Nat → XF K} (hf : ∀ i < n, ∀ h < 24, (f i h).NanOrFin) {m : Int} {c : Nat → K}
    (hm : ∀ i < n, monthOf (at00 (d0 + (i : Nat))) = m → (∀ h < 24, f i h = .nan) ∨ ∃ x y : K, 0 ≤ y ∧ ∀ h < 24, f i h = .fin (x + c h * y))
    (hpos : ∃ i < n, monthOf (at00 (d0 + (i : Nat))) = m ∧ ∃ x y : K, 0 < y ∧ ∀ h < 24, f i h = .fin (x + c h * y))
    (hr : ∀ h < 24, 0 ≤ c h ∧ c h ≤ 1) (h0 : ∃ h < 24, c h = 0) (h1 : ∃ h < 24, c h = 1) {h : Nat} (hh : h < 24) :
    (meanDailyCourseByMonth (hourlyS d0 n f) true).val m h = .fin (c h) := by
  obtain ⟨a, ha, ea⟩ := h0
  obtain ⟨b, hb, eb⟩ := h1
  have hn : 0 < n := by obtain ⟨i, hi, _⟩ := hpos; omega
  obtain ⟨X, Y, hY, hraw⟩ := refit_raw hm hpos ⟨a, ha, b, hb, by rw [ea, eb]; exact zero_ne_one⟩
  have hs : ∀ r ∈ hourlyS d0 n f, r.2.NanOrFin := by
    intro r hr
    obtain ⟨i, hi, k, hk, rfl⟩ := mem_hourlyS_val hr
    exact hf i hi k hk
  have hH := fun k => (hours_hourlyS (d0 := d0) hn f k)
  rw [(C14_scaling _ hs).2.2 m X (X + Y) (ne_of_lt (by linarith)) ⟨a, (hH a).1.2 ha, by rw [hraw a ha, ea]; simp⟩
    ⟨b, (hH b).1.2 hb, by rw [hraw b hb, eb]; simp⟩ ?_ h _ (hraw h hh)]
  · congr 1
    rw [add_sub_cancel_left, add_sub_cancel_left, mul_div_assoc, div_self hY.ne', mul_one]
  · intro k hk x hx
    obtain ⟨j, hj, rfl⟩ := (hH 0).2 k hk
    rw [hraw j hj] at hx
    injection hx with hx
    obtain ⟨q1, q2⟩ := hr j hj
    have := mul_nonneg q1 hY.le
    have := mul_le_mul_of_nonneg_right q2 hY.le
    constructor <;> linarith

end Melodist
