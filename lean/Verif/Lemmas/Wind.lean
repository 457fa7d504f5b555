import Verif.Model.Wind
import Verif.Lemmas.Stats
import Verif.Lemmas.Master
import Mathlib.Algebra.Order.BigOperators.Group.List

/-! Lemmas about wind disaggregation. -/

set_option linter.unusedSectionVars false

namespace Melodist
open Spec

theorem day24_split {V : Type} (f : Nat → V) :
    day24 f = (List.range 12).map f ++ (List.range 12).map fun h => f (12 + h) := by
  unfold day24
  rw [show (24 : Nat) = 12 + 12 from rfl, List.range_add, List.map_append, List.map_map]
  rfl

/-- the 24 cosine values of a day cancel -/
theorem cos_day_sum (t : ℝ) : (day24 fun h : Nat => Real.cos (Real.pi * ((h : ℝ) - t) / 12)).sum = 0 := by
  rw [day24_split, List.sum_append]
  have : ((List.range 12).map fun h : Nat => Real.cos (Real.pi * (((12 + h : Nat) : ℝ) - t) / 12)) =
      (List.range 12).map fun h : Nat => -Real.cos (Real.pi * ((h : ℝ) - t) / 12) := by
    apply List.map_congr_left
    intro h _
    rw [← Real.cos_add_pi]
    congr 1
    push_cast
    ring
  rw [this]
  have hneg : ∀ l : List Nat, (l.map fun h : Nat => -Real.cos (Real.pi * ((h : ℝ) - t) / 12)).sum =
      -(l.map fun h : Nat => Real.cos (Real.pi * ((h : ℝ) - t) / 12)).sum := by
    intro l
    induction l with
    | nil => simp
    | cons x l ih => simp only [List.map_cons, List.sum_cons, ih]; ring
  rw [hneg]; ring

theorem sum_day24_add {K : Type} [Field K] (f g : Nat → K) : (day24 fun h => f h + g h).sum = (day24 f).sum + (day24 g).sum := by
  unfold day24
  induction List.range 24 with
  | nil => simp
  | cons x l ih => simp only [List.map_cons, List.sum_cons, ih]; ring

theorem sum_day24_mul {K : Type} [Field K] (c : K) (f : Nat → K) : (day24 fun h => c * f h).sum = c * (day24 f).sum := by
  unfold day24
  induction List.range 24 with
  | nil => simp
  | cons x l ih => simp only [List.map_cons, List.sum_cons, ih]; ring

theorem cosineCell_fin (a b tShift m : ℝ) (h : Nat) :
    cosineCell a b tShift (.fin m) (h : Int) = .fin (a * m * Real.cos (Real.pi * ((h : ℝ) - tShift) / 12) + b * m) := by
  unfold cosineCell
  simp

theorem zipIdx_hourlyS {V W : Type} (d0 : Int) (n : Nat) (f : Nat → Nat → V) (g : V → Nat → W) :
    (hourlyS d0 n f).zipIdx.map (fun r => (r.1.1, g r.1.2 r.2)) = hourlyS d0 n fun i h => g (f i h) (24 * i + h) := by
  apply List.ext_getElem
  · simp
  · intro k h1 h2
    simp only [List.getElem_map, List.getElem_zipIdx, hourlyS_getElem, Nat.zero_add]
    rw [show 24 * (k / 24) + k % 24 = k by omega]

/-- values of a complete hourly series, split by day -/
theorem values_day {V : Type} (d0 : Int) {n : Nat} (f : Nat → Nat → V) {i : Nat} (hi : i < n) :
    ((Series.values (hourlyS d0 n f)).drop (24 * i)).take 24 = day24 (f i) := by
  rw [hourlyS_values]
  apply List.ext_getElem
  · simp; omega
  · intro k h1 h2
    simp only [day24_length] at h2
    simp only [List.getElem_take, List.getElem_drop, List.getElem_map, List.getElem_range, day24]
    rw [show (24 * i + k) / 24 = i by omega, show (24 * i + k) % 24 = k by omega]

/-- a sum over the hours of complete days, day by day -/
theorem sum_hours_days {K : Type} [Field K] (n : Nat) (g : Nat → Nat → K) :
    ((List.range (24 * n)).map fun k : Nat => g (k / 24) (k % 24)).sum = ((List.range n).map fun i => (day24 (g i)).sum).sum := by
  induction n with
  | zero => simp
  | succ n ih =>
    rw [show 24 * (n + 1) = 24 * n + 24 by omega, List.range_add, List.map_append, List.sum_append, ih, List.range_succ (n := n),
      List.map_append, List.sum_append, List.map_map]
    congr 1
    simp only [List.map_cons, List.map_nil, List.sum_cons, List.sum_nil, add_zero, day24]
    congr 1
    apply List.map_congr_left
    intro k hk
    have := List.mem_range.1 hk
    simp only [Function.comp_def]
    rw [show (24 * n + k) / 24 = n by omega, show (24 * n + k) % 24 = k by omega]

theorem fitRows_hourly (d0 : Int) (n : Nat) (f : Nat → Nat → ℝ) :
    fitRows (hourlyS d0 n fun i h => .fin (f i h)) =
      .ok ((List.range (24 * n)).map fun k : Nat => ((day24 (f (k / 24))).sum / 24, ((k % 24 : Nat) : Int), f (k / 24) (k % 24))) := by
  unfold fitRows
  simp only [groupbyDate_hourlyS]
  have e : (hourlyS d0 n fun i h => XF.fin (f i h)).map (fun r => ((Series.at? (dailyS d0 n fun i =>
      meanSkip (day24 fun h => XF.fin (f i h))) (midnight (dayOf r.1))).getD .nan, hourOf r.1, r.2)) =
      (List.range (24 * n)).map fun k : Nat =>
        (XF.fin ((day24 (f (k / 24))).sum / 24), ((k % 24 : Nat) : Int), XF.fin (f (k / 24) (k % 24))) := by
    unfold hourlyS
    rw [List.map_map]
    apply List.map_congr_left
    intro k hk
    have hk := List.mem_range.1 hk
    simp only [Function.comp_def]
    rw [dayOf_atHour _ (Nat.mod_lt _ (by omega)), hourOf_atHour _ (Nat.mod_lt _ (by omega)), ← at00_eq,
      dailyS_at? d0 _ (show k / 24 < n by omega), meanSkip_eq (nanOrFin_day24 _), numbers_day24, day24_length]
    · norm_num
    · rw [numbers_day24]
      intro e
      have := congrArg List.length e
      simp at this
  rw [e, List.filter_eq_self.2]
  · rw [List.mapM_map]
    generalize List.range (24 * n) = l
    induction l with
    | nil => rfl
    | cons x l ih =>
      rw [List.mapM_cons]
      simp only [Function.comp_def] at ih ⊢
      rw [ih]
      rfl
  · intro r hr
    obtain ⟨k, _, rfl⟩ := List.mem_map.1 hr
    rfl

theorem fit_b_eq_one (n : Nat) (f : Nat → Nat → ℝ) (hwind : ∃ i < n, (day24 (f i)).sum ≠ 0) (a b t : ℝ)
    (hmin : ∀ b' : ℝ,
      ((List.range (24 * n)).map fun k : Nat => (a * ((day24 (f (k / 24))).sum / 24) *
        Real.cos (Real.pi * ((((k % 24 : Nat) : Int) : ℝ) - t) / 12) + b * ((day24 (f (k / 24))).sum / 24) - f (k / 24) (k % 24)) ^ 2).sum ≤
      ((List.range (24 * n)).map fun k : Nat => (a * ((day24 (f (k / 24))).sum / 24) *
        Real.cos (Real.pi * ((((k % 24 : Nat) : Int) : ℝ) - t) / 12) + b' * ((day24 (f (k / 24))).sum / 24) - f (k / 24) (k % 24)) ^ 2).sum) :
    b = 1 := by
  let m : Nat → ℝ := fun i => (day24 (f i)).sum / 24
  let c : Nat → ℝ := fun h => Real.cos (Real.pi * ((h : ℝ) - t) / 12)
  -- the sum of squares of one day as a polynomial in b
  have hday : ∀ (β : ℝ) (i : Nat), (day24 fun h => (a * m i * c h + β * m i - f i h) ^ 2).sum =
      (day24 fun h => (a * m i * c h + 1 * m i - f i h) ^ 2).sum + 24 * (β - 1) ^ 2 * (m i) ^ 2 := by
    intro β i
    have e1 : (day24 fun h => (a * m i * c h + β * m i - f i h) ^ 2) =
        day24 fun h => (a * m i * c h + 1 * m i - f i h) ^ 2 +
          ((2 * (β - 1) * m i * (a * m i)) * c h + ((β - 1) ^ 2 * (m i) ^ 2 + 2 * (β - 1) * (m i) ^ 2) +
          (-(2 * (β - 1) * m i)) * f i h) := by
      apply day24_congr
      intro h _
      ring
    have hm : (day24 (f i)).sum = 24 * m i := by show _ = 24 * ((day24 (f i)).sum / 24); ring
    have e2 : (day24 fun h => (2 * (β - 1) * m i * (a * m i)) * c h + ((β - 1) ^ 2 * (m i) ^ 2 + 2 * (β - 1) * (m i) ^ 2) +
          (-(2 * (β - 1) * m i)) * f i h).sum = 24 * (β - 1) ^ 2 * (m i) ^ 2 := by
      rw [sum_day24_add, sum_day24_add, sum_day24_mul, sum_day24_mul, sum_day24_const, hm, cos_day_sum t]
      ring
    rw [e1, sum_day24_add, e2]
  have htot : ∀ β : ℝ, ((List.range (24 * n)).map fun k : Nat => (a * ((day24 (f (k / 24))).sum / 24) *
        Real.cos (Real.pi * ((((k % 24 : Nat) : Int) : ℝ) - t) / 12) + β * ((day24 (f (k / 24))).sum / 24) - f (k / 24) (k % 24)) ^ 2).sum =
      ((List.range n).map fun i => (day24 fun h => (a * m i * c h + 1 * m i - f i h) ^ 2).sum).sum +
        24 * (β - 1) ^ 2 * ((List.range n).map fun i => (m i) ^ 2).sum := by
    intro β
    have := sum_hours_days n (fun i h => (a * m i * c h + β * m i - f i h) ^ 2)
    have e0 : ((List.range (24 * n)).map fun k : Nat => (a * ((day24 (f (k / 24))).sum / 24) *
        Real.cos (Real.pi * ((((k % 24 : Nat) : Int) : ℝ) - t) / 12) + β * ((day24 (f (k / 24))).sum / 24) - f (k / 24) (k % 24)) ^ 2) =
        (List.range (24 * n)).map fun k : Nat => (a * m (k / 24) * c (k % 24) + β * m (k / 24) - f (k / 24) (k % 24)) ^ 2 := by
      apply List.map_congr_left
      intro k _
      simp only [m, c, Int.cast_natCast]
    rw [e0, this]
    simp only [hday β]
    generalize List.range n = l
    induction l with
    | nil => simp
    | cons x l ih => simp only [List.map_cons, List.sum_cons, ih]; ring
  have hM : 0 < ((List.range n).map fun i => (m i) ^ 2).sum := by
    obtain ⟨i, hi, hne⟩ := hwind
    have hpos : 0 < (m i) ^ 2 := by
      have : m i ≠ 0 := div_ne_zero hne (by norm_num)
      positivity
    have hle : (m i) ^ 2 ≤ ((List.range n).map fun i => (m i) ^ 2).sum := by
      apply List.single_le_sum
      · intro x hx
        obtain ⟨j, _, rfl⟩ := List.mem_map.1 hx
        positivity
      · exact List.mem_map.2 ⟨i, List.mem_range.2 hi, rfl⟩
    linarith
  have := hmin 1
  rw [htot b, htot 1] at this
  have h0 : (b - 1) ^ 2 * ((List.range n).map fun i => (m i) ^ 2).sum ≤ 0 := by nlinarith
  have h1 : (b - 1) ^ 2 ≤ 0 := by
    by_contra hc
    have : 0 < (b - 1) ^ 2 := lt_of_not_ge hc
    have := mul_pos this hM
    linarith
  have h2 : b - 1 = 0 := by
    have := sq_nonneg (b - 1)
    exact pow_eq_zero_iff (two_ne_zero) |>.1 (le_antisymm h1 this)
  linarith

end Melodist
