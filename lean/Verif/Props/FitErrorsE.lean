import Verif.Props.FitErrorsB
import Verif.Props.ParamErrors

/-!
# C173: from observed wind speeds to disaggregated wind speeds
-/

set_option linter.unusedSectionVars false

namespace Melodist
open Spec

noncomputable section

/-- the squares of the 24 cosine values of a day -/
theorem cos_sq_day_sum (t : ℝ) : (day24 fun h : Nat => Real.cos (Real.pi * ((h : ℝ) - t) / 12) ^ 2).sum = 12 := by
  have h2 : (day24 fun h : Nat => Real.cos (2 * (Real.pi * ((h : ℝ) - t) / 12))).sum = 0 := by
    have key : ∀ h : Nat, Real.cos (2 * (Real.pi * (((h + 6 : Nat) : ℝ) - t) / 12)) = -Real.cos (2 * (Real.pi * ((h : ℝ) - t) / 12)) := by
      intro h
      rw [← Real.cos_add_pi]
      congr 1
      push_cast
      ring
    have k0 := key 0; have k1 := key 1; have k2 := key 2; have k3 := key 3; have k4 := key 4; have k5 := key 5
    have k12 := key 12; have k13 := key 13; have k14 := key 14; have k15 := key 15; have k16 := key 16; have k17 := key 17
    norm_num only [Nat.reduceAdd] at k0 k1 k2 k3 k4 k5 k12 k13 k14 k15 k16 k17
    simp only [day24, List.range_succ, List.range_zero, List.nil_append, List.cons_append, List.map_cons, List.map_nil, List.sum_cons, List.sum_nil]
    push_cast
    linarith
  have e : (fun h : Nat => Real.cos (Real.pi * ((h : ℝ) - t) / 12) ^ 2) = fun h : Nat => 1 / 2 + 1 / 2 * Real.cos (2 * (Real.pi * ((h : ℝ) - t) / 12)) := by
    funext h
    rw [Real.cos_sq]
    ring
  rw [e, sum_day24_add, sum_day24_mul, h2]
  norm_num [day24]

/-- the hourly course of parameters `p = (a, b, t_shift)`, for the daily mean 1 -/
def Spec.unitCosine (p : ℝ × ℝ × ℝ) (h : Nat) : ℝ := p.1 * Real.cos (Real.pi * ((h : ℝ) - p.2.2) / 12) + p.2.1

/-- the difference of two courses is nowhere larger than its root mean square over the day times √3 -/
theorem course_bound (p p' : ℝ × ℝ × ℝ) (k : Nat) :
    8 * (unitCosine p k - unitCosine p' k) ^ 2 ≤ (day24 fun h => (unitCosine p h - unitCosine p' h) ^ 2).sum := by
  obtain ⟨α, τ, H⟩ := amp_phase (p.1 * Real.cos (Real.pi * p.2.2 / 12) - p'.1 * Real.cos (Real.pi * p'.2.2 / 12))
    (p.1 * Real.sin (Real.pi * p.2.2 / 12) - p'.1 * Real.sin (Real.pi * p'.2.2 / 12))
  have e : ∀ h : Nat, unitCosine p h - unitCosine p' h = α * Real.cos (Real.pi * ((h : ℝ) - τ) / 12) + (p.2.1 - p'.2.1) := by
    intro h
    unfold unitCosine
    rw [H, phase_amp p.1, phase_amp p'.1]
    ring
  simp only [e]
  generalize p.2.1 - p'.2.1 = c
  have hs : (day24 fun h : Nat => (α * Real.cos (Real.pi * ((h : ℝ) - τ) / 12) + c) ^ 2).sum = 12 * α ^ 2 + 24 * c ^ 2 := by
    have e2 : (fun h : Nat => (α * Real.cos (Real.pi * ((h : ℝ) - τ) / 12) + c) ^ 2) =
        fun h : Nat => α ^ 2 * Real.cos (Real.pi * ((h : ℝ) - τ) / 12) ^ 2 + (2 * α * c * Real.cos (Real.pi * ((h : ℝ) - τ) / 12) + c ^ 2) := by
      funext h
      ring
    rw [e2, sum_day24_add, sum_day24_add, sum_day24_mul, sum_day24_mul, cos_sq_day_sum, cos_day_sum]
    norm_num [day24]
    ring
  rw [hs]
  have h1 := Real.cos_sq_le_one (Real.pi * ((k : ℝ) - τ) / 12)
  generalize Real.cos (Real.pi * ((k : ℝ) - τ) / 12) = x at *
  nlinarith [sq_nonneg (α * x - 2 * c), mul_le_mul_of_nonneg_left h1 (sq_nonneg α)]

/-- `Σ (M g)²` over the hours of `n` days -/
theorem days_sum_sq (n : Nat) (M : Nat → ℝ) (g : Nat → ℝ) :
    ((List.range (24 * n)).map fun k : Nat => (M (k / 24) * g (k % 24)) ^ 2).sum = ((List.range n).map fun i => M i ^ 2).sum * (day24 fun h => g h ^ 2).sum := by
  rw [sum_hours_days n fun i h => (M i * g h) ^ 2, ← List.sum_map_mul_right]
  congr 1
  apply List.map_congr_left
  intro i _
  rw [← sum_day24_mul]
  congr 2
  funext h
  ring

theorem sum_sq_pos {n : Nat} {M : Nat → ℝ} (h : ∃ i < n, M i ≠ 0) : 0 < ((List.range n).map fun i => M i ^ 2).sum := by
  obtain ⟨i, hi, h⟩ := h
  refine lt_of_lt_of_le (by positivity : 0 < M i ^ 2) (List.single_le_sum ?_ _ (List.mem_map_of_mem (f := fun i => M i ^ 2) (List.mem_range.2 hi)))
  intro x hx
  obtain ⟨j, _, rfl⟩ := List.mem_map.1 hx
  positivity

/-- residuals of a least-squares fit to complete days are orthogonal to the difference from any other course -/
theorem hours_orth {n : Nat} {M : Nat → ℝ} {y : Nat → Nat → ℝ} {p : ℝ × ℝ × ℝ}
    (hp : IsLeastSquares ((List.range (24 * n)).map fun k : Nat => (M (k / 24), ((k % 24 : Nat) : Int), y (k / 24) (k % 24))) p) (q : ℝ × ℝ × ℝ) :
    (((List.range (24 * n)).map fun k : Nat => (k : Int)).map fun t => (M (t.toNat / 24) * unitCosine p (t.toNat % 24) - M (t.toNat / 24) * unitCosine q (t.toNat % 24)) *
      (M (t.toNat / 24) * unitCosine p (t.toNat % 24) - y (t.toNat / 24) (t.toNat % 24))).sum = 0 := by
  apply normal_eq
  intro u
  obtain ⟨s, hs⟩ := line_params p q u
  have := hp s
  rw [List.map_map, List.map_map] at this ⊢
  refine (le_of_eq ?_).trans (this.trans (le_of_eq ?_))
  · congr 1
    apply List.map_congr_left
    intro k _
    simp only [Function.comp_def, Int.toNat_natCast, Int.cast_natCast]
    unfold unitCosine
    ring
  · congr 1
    apply List.map_congr_left
    intro k _
    simp only [Function.comp_def, Int.toNat_natCast, Int.cast_natCast]
    rw [hs]
    unfold unitCosine
    ring

/-- courses whose differences on the days of a fit are bounded -/
theorem courses_near {n : Nat} {M : Nat → ℝ} {p p' : ℝ × ℝ × ℝ} {S : ℝ} (hM : 0 < ((List.range n).map fun i => M i ^ 2).sum)
    (h : (((List.range (24 * n)).map fun k : Nat => (k : Int)).map fun t =>
      (M (t.toNat / 24) * unitCosine p (t.toNat % 24) - M (t.toNat / 24) * unitCosine p' (t.toNat % 24)) ^ 2).sum ≤ S) (k : Nat) :
    |unitCosine p k - unitCosine p' k| ≤ Real.sqrt (S / (8 * ((List.range n).map fun i => M i ^ 2).sum)) := by
  apply Real.abs_le_sqrt
  rw [List.map_map] at h
  have e : ((fun t : Int => (M (t.toNat / 24) * unitCosine p (t.toNat % 24) - M (t.toNat / 24) * unitCosine p' (t.toNat % 24)) ^ 2) ∘ fun k : Nat => (k : Int)) =
      fun k : Nat => (M (k / 24) * (unitCosine p (k % 24) - unitCosine p' (k % 24))) ^ 2 := by
    funext k
    simp only [Function.comp_def, Int.toNat_natCast]
    ring
  rw [e, days_sum_sq n M fun h => unitCosine p h - unitCosine p' h] at h
  have hb := course_bound p p' k
  generalize ((List.range n).map fun i => M i ^ 2).sum = A at *
  rw [le_div_iff₀ (by linarith)]
  have := mul_le_mul_of_nonneg_left hb hM.le
  nlinarith

/-- hours disaggregated with two sets of parameters whose courses differ by at most `B` -/
theorem wind_runs_near {p p' : ℝ × ℝ × ℝ} {B : ℝ} (hB : ∀ k, |unitCosine p k - unitCosine p' k| ≤ B) {api : PandasApi} {draw draw' : Nat → ℝ} {d1 : Int} {m : Nat} (hm : 0 < m)
    {v : Nat → XF ℝ} {r r' : WindResult} (h : disaggregateWind api draw (dailyS d1 m v) "cosine" (some p.1) (some p.2.1) (some p.2.2) = .ok r)
    (h' : disaggregateWind api draw' (dailyS d1 m v) "cosine" (some p'.1) (some p'.2.1) (some p'.2.2) = .ok r') {i : Nat} (hi : i < m) {k : Nat} (hk : k < 24) :
    ∃ c c', r.values[24 * i + k]? = some c ∧ r'.values[24 * i + k]? = some c' ∧ (v i = .nan → c = .nan ∧ c' = .nan) ∧ ∀ x, v i = .fin x → Near (|x| * B) c c' := by
  have hget : ∀ (f : Nat → Nat → XF ℝ) (i k : Nat), i < m → k < 24 → (Series.values (hourlyS d1 m f))[24 * i + k]? = some (f i k) := by
    intro f i k hi hk
    rw [hourlyS_values, List.getElem?_map, List.getElem?_range (by omega), Option.map_some, show (24 * i + k) / 24 = i by omega, show (24 * i + k) % 24 = k by omega]
  rcases wind_run hm h with ⟨e, _⟩ | ⟨_, x, y, z, e1, e2, e3, rfl⟩ | ⟨e, _⟩
  · exact absurd e (by decide)
  · cases e1; cases e2; cases e3
    rcases wind_run hm h' with ⟨e, _⟩ | ⟨_, x, y, z, e1, e2, e3, rfl⟩ | ⟨e, _⟩
    · exact absurd e (by decide)
    · cases e1; cases e2; cases e3
      refine ⟨_, _, hget _ i k hi hk, hget _ i k hi hk, ?_, ?_⟩
      · intro e
        simp [cosineCell, e]
      · intro x e
        rw [e, cosineCell_fin, cosineCell_fin]
        show |_ - _| ≤ _
        have := hB k
        unfold unitCosine at this
        rw [show p.1 * x * Real.cos (Real.pi * ((k : ℝ) - p.2.2) / 12) + p.2.1 * x - (p'.1 * x * Real.cos (Real.pi * ((k : ℝ) - p'.2.2) / 12) + p'.2.1 * x) =
          x * (p.1 * Real.cos (Real.pi * ((k : ℝ) - p.2.2) / 12) + p.2.1 - (p'.1 * Real.cos (Real.pi * ((k : ℝ) - p'.2.2) / 12) + p'.2.1)) by ring, abs_mul]
        exact mul_le_mul_of_nonneg_left this (abs_nonneg _)
    · exact absurd e (by decide)
  · exact absurd e (by decide)

theorem hour_rows {n : Nat} {M : Nat → ℝ} {z : Nat → Nat → ℝ} (hz : ∀ i < n, (day24 (z i)).sum / 24 = M i) :
    ((List.range (24 * n)).map fun k : Nat => ((day24 (z (k / 24))).sum / 24, ((k % 24 : Nat) : Int), z (k / 24) (k % 24))) =
    (List.range (24 * n)).map fun k : Nat => (M (k / 24), ((k % 24 : Nat) : Int), z (k / 24) (k % 24)) := by
  apply List.map_congr_left
  intro k hk
  have : k < 24 * n := List.mem_range.1 hk
  rw [hz (k / 24) (by omega)]

/-- **C173** (wind, end to end) The cosine function is fitted to two complete hourly records `y`, `y'` of `n` days with the same daily means `M`, not all 0, and the same daily data are disaggregated by 'cosine'
with the two results.  The hours of a day with the mean `x` differ by at most |x| √(Σ (y - y')² / (8 Σ M²)) (sums over all hours and over all days of the records). -/
theorem C173_wind {d0 : Int} {n : Nat} {y y' : Nat → Nat → ℝ} (opt opt' : List (ℝ × Int × ℝ) → Py (ℝ × ℝ × ℝ)) (hopt : ∀ rows p, opt rows = .ok p → IsLeastSquares rows p)
    (hopt' : ∀ rows p, opt' rows = .ok p → IsLeastSquares rows p) {p p' : ℝ × ℝ × ℝ} (hp : fitCosineFunction opt (hourlyS d0 n fun i h => .fin (y i h)) = .ok p)
    (hp' : fitCosineFunction opt' (hourlyS d0 n fun i h => .fin (y' i h)) = .ok p') {M : Nat → ℝ} (hy : ∀ i < n, (day24 (y i)).sum / 24 = M i)
    (hy' : ∀ i < n, (day24 (y' i)).sum / 24 = M i) (hM : ∃ i < n, M i ≠ 0)
    {api : PandasApi} {draw draw' : Nat → ℝ} {d1 : Int} {m : Nat} (hm : 0 < m) {v : Nat → XF ℝ} {r r' : WindResult}
    (h : disaggregateWind api draw (dailyS d1 m v) "cosine" (some p.1) (some p.2.1) (some p.2.2) = .ok r)
    (h' : disaggregateWind api draw' (dailyS d1 m v) "cosine" (some p'.1) (some p'.2.1) (some p'.2.2) = .ok r') {i : Nat} (hi : i < m) {k : Nat} (hk : k < 24) :
    ∃ c c', r.values[24 * i + k]? = some c ∧ r'.values[24 * i + k]? = some c' ∧ (v i = .nan → c = .nan ∧ c' = .nan) ∧
      ∀ x, v i = .fin x → Near (|x| * Real.sqrt (((List.range n).map fun i => (day24 fun h => (y i h - y' i h) ^ 2).sum).sum / (8 * ((List.range n).map fun i => M i ^ 2).sum))) c c' := by
  unfold fitCosineFunction at hp hp'
  rw [fitRows_hourly d0 n y, hour_rows hy] at hp
  rw [fitRows_hourly d0 n y', hour_rows hy'] at hp'
  have l1 := hours_orth (hopt _ _ hp) p'
  have l2 := hours_orth (hopt' _ _ hp') p
  have key := fits_near ((List.range (24 * n)).map fun k : Nat => (k : Int)) (fun t => M (t.toNat / 24) * unitCosine p (t.toNat % 24)) (fun t => M (t.toNat / 24) * unitCosine p' (t.toNat % 24))
    (fun t => y (t.toNat / 24) (t.toNat % 24)) (fun t => y' (t.toNat / 24) (t.toNat % 24)) l1 (by
      have e2 : (fun t : Int => (M (t.toNat / 24) * unitCosine p (t.toNat % 24) - M (t.toNat / 24) * unitCosine p' (t.toNat % 24)) *
          (M (t.toNat / 24) * unitCosine p' (t.toNat % 24) - y' (t.toNat / 24) (t.toNat % 24))) =
          fun t => -1 * ((M (t.toNat / 24) * unitCosine p' (t.toNat % 24) - M (t.toNat / 24) * unitCosine p (t.toNat % 24)) *
          (M (t.toNat / 24) * unitCosine p' (t.toNat % 24) - y' (t.toNat / 24) (t.toNat % 24))) := by
        funext t
        ring
      rw [e2, List.sum_map_mul_left, l2, mul_zero])
  rw [List.map_map (g := fun t : Int => (y (t.toNat / 24) (t.toNat % 24) - y' (t.toNat / 24) (t.toNat % 24)) ^ 2)] at key
  have e3 : ((fun t : Int => (y (t.toNat / 24) (t.toNat % 24) - y' (t.toNat / 24) (t.toNat % 24)) ^ 2) ∘ fun k : Nat => (k : Int)) =
      fun k : Nat => (y (k / 24) (k % 24) - y' (k / 24) (k % 24)) ^ 2 := rfl
  rw [e3, sum_hours_days n fun i h => (y i h - y' i h) ^ 2] at key
  exact wind_runs_near (courses_near (sum_sq_pos hM) key) hm h h' hi hk

/-- **C173** (errors per hour) If the two records of C173 differ by at most ε in every hour and no daily mean is below `μ > 0` in absolute value, the hours of a day with the mean `x` differ by at most
√3 |x| ε / μ, however long the records are. -/
theorem C173_per_hour {d0 : Int} {n : Nat} {y y' : Nat → Nat → ℝ} (opt opt' : List (ℝ × Int × ℝ) → Py (ℝ × ℝ × ℝ)) (hopt : ∀ rows p, opt rows = .ok p → IsLeastSquares rows p)
    (hopt' : ∀ rows p, opt' rows = .ok p → IsLeastSquares rows p) {p p' : ℝ × ℝ × ℝ} (hp : fitCosineFunction opt (hourlyS d0 n fun i h => .fin (y i h)) = .ok p)
    (hp' : fitCosineFunction opt' (hourlyS d0 n fun i h => .fin (y' i h)) = .ok p') {M : Nat → ℝ} (hy : ∀ i < n, (day24 (y i)).sum / 24 = M i)
    (hy' : ∀ i < n, (day24 (y' i)).sum / 24 = M i) (hn : 0 < n) {ε μ : ℝ} (hμ : 0 < μ) (hM : ∀ i < n, μ ≤ |M i|) (hε : ∀ i < n, ∀ h < 24, |y i h - y' i h| ≤ ε)
    {api : PandasApi} {draw draw' : Nat → ℝ} {d1 : Int} {m : Nat} (hm : 0 < m) {v : Nat → XF ℝ} {r r' : WindResult}
    (h : disaggregateWind api draw (dailyS d1 m v) "cosine" (some p.1) (some p.2.1) (some p.2.2) = .ok r)
    (h' : disaggregateWind api draw' (dailyS d1 m v) "cosine" (some p'.1) (some p'.2.1) (some p'.2.2) = .ok r') {i : Nat} (hi : i < m) {k : Nat} (hk : k < 24) :
    ∃ c c', r.values[24 * i + k]? = some c ∧ r'.values[24 * i + k]? = some c' ∧ (v i = .nan → c = .nan ∧ c' = .nan) ∧ ∀ x, v i = .fin x → Near (Real.sqrt 3 * |x| * ε / μ) c c' := by
  obtain ⟨c, c', e, e', hnan, hb⟩ := C173_wind opt opt' hopt hopt' hp hp' hy hy' ⟨0, hn, abs_pos.1 (hμ.trans_le (hM 0 hn))⟩ hm h h' hi hk
  refine ⟨c, c', e, e', hnan, fun x hx => Near.weaken ?_ (hb x hx)⟩
  have hε0 : 0 ≤ ε := (abs_nonneg _).trans (hε 0 hn 0 (by omega))
  have up : ((List.range n).map fun i => (day24 fun h => (y i h - y' i h) ^ 2).sum).sum ≤ n * (24 * ε ^ 2) := by
    have : ∀ a ∈ (List.range n).map fun i => (day24 fun h => (y i h - y' i h) ^ 2).sum, a ≤ 24 * ε ^ 2 := by
      intro a ha
      obtain ⟨i, hi, rfl⟩ := List.mem_map.1 ha
      have : ∀ b ∈ day24 fun h => (y i h - y' i h) ^ 2, b ≤ ε ^ 2 := by
        intro b hb
        obtain ⟨h, hh, rfl⟩ := List.mem_map.1 hb
        exact sq_le_sq' (abs_le.1 (hε i (List.mem_range.1 hi) h (List.mem_range.1 hh))).1 (abs_le.1 (hε i (List.mem_range.1 hi) h (List.mem_range.1 hh))).2
      have := List.sum_le_card_nsmul _ _ this
      simpa [day24] using this
    have := List.sum_le_card_nsmul _ _ this
    simpa using this
  have lo : n * μ ^ 2 ≤ ((List.range n).map fun i => M i ^ 2).sum := by
    have : ∀ a ∈ (List.range n).map fun i => M i ^ 2, μ ^ 2 ≤ a := by
      intro a ha
      obtain ⟨i, hi, rfl⟩ := List.mem_map.1 ha
      rw [← sq_abs (M i)]
      exact pow_le_pow_left₀ hμ.le (hM i (List.mem_range.1 hi)) 2
    have := List.card_nsmul_le_sum _ _ this
    simpa using this
  have hn' : (0 : ℝ) < n := Nat.cast_pos.2 hn
  have hs : Real.sqrt (((List.range n).map fun i => (day24 fun h => (y i h - y' i h) ^ 2).sum).sum / (8 * ((List.range n).map fun i => M i ^ 2).sum)) ≤ Real.sqrt 3 * (ε / μ) := by
    rw [← Real.sqrt_sq (div_nonneg hε0 hμ.le), ← Real.sqrt_mul (by norm_num)]
    apply Real.sqrt_le_sqrt
    refine (div_le_div₀ (by positivity) up (by positivity) (mul_le_mul_of_nonneg_left lo (by norm_num : (0 : ℝ) ≤ 8))).trans (le_of_eq ?_)
    field_simp
    ring
  refine (mul_le_mul_of_nonneg_left hs (abs_nonneg x)).trans (le_of_eq ?_)
  ring

/-- **C173** (true parameters) The cosine function is fitted to a complete hourly record `y` of `n` days with the daily means `M`, not all 0, and the same daily data are disaggregated by 'cosine' with the result
and with any other parameters `q` ("the true ones").  The hours of a day with the mean `x` differ by at most |x| √(S / (8 Σ M²)), where `S` is the sum of the squared deviations of the record from the course
of `q`. -/
theorem C173_truth {d0 : Int} {n : Nat} {y : Nat → Nat → ℝ} (opt : List (ℝ × Int × ℝ) → Py (ℝ × ℝ × ℝ)) (hopt : ∀ rows p, opt rows = .ok p → IsLeastSquares rows p)
    {p : ℝ × ℝ × ℝ} (hp : fitCosineFunction opt (hourlyS d0 n fun i h => .fin (y i h)) = .ok p) (q : ℝ × ℝ × ℝ) {M : Nat → ℝ} (hy : ∀ i < n, (day24 (y i)).sum / 24 = M i)
    (hM : ∃ i < n, M i ≠ 0) {api : PandasApi} {draw draw' : Nat → ℝ} {d1 : Int} {m : Nat} (hm : 0 < m) {v : Nat → XF ℝ} {r r' : WindResult}
    (h : disaggregateWind api draw (dailyS d1 m v) "cosine" (some p.1) (some p.2.1) (some p.2.2) = .ok r)
    (h' : disaggregateWind api draw' (dailyS d1 m v) "cosine" (some q.1) (some q.2.1) (some q.2.2) = .ok r') {i : Nat} (hi : i < m) {k : Nat} (hk : k < 24) :
    ∃ c c', r.values[24 * i + k]? = some c ∧ r'.values[24 * i + k]? = some c' ∧ (v i = .nan → c = .nan ∧ c' = .nan) ∧
      ∀ x, v i = .fin x → Near (|x| * Real.sqrt (((List.range n).map fun i => (day24 fun h => (y i h - M i * unitCosine q h) ^ 2).sum).sum /
        (8 * ((List.range n).map fun i => M i ^ 2).sum))) c c' := by
  unfold fitCosineFunction at hp
  rw [fitRows_hourly d0 n y, hour_rows hy] at hp
  have l1 := hours_orth (hopt _ _ hp) q
  have key := fits_near ((List.range (24 * n)).map fun k : Nat => (k : Int)) (fun t => M (t.toNat / 24) * unitCosine p (t.toNat % 24)) (fun t => M (t.toNat / 24) * unitCosine q (t.toNat % 24))
    (fun t => y (t.toNat / 24) (t.toNat % 24)) (fun t => M (t.toNat / 24) * unitCosine q (t.toNat % 24)) l1 (by
      apply List.sum_eq_zero
      intro x hx
      obtain ⟨d, _, rfl⟩ := List.mem_map.1 hx
      simp)
  rw [List.map_map (g := fun t : Int => (y (t.toNat / 24) (t.toNat % 24) - M (t.toNat / 24) * unitCosine q (t.toNat % 24)) ^ 2)] at key
  have e3 : ((fun t : Int => (y (t.toNat / 24) (t.toNat % 24) - M (t.toNat / 24) * unitCosine q (t.toNat % 24)) ^ 2) ∘ fun k : Nat => (k : Int)) =
      fun k : Nat => (y (k / 24) (k % 24) - M (k / 24) * unitCosine q (k % 24)) ^ 2 := rfl
  rw [e3, sum_hours_days n fun i h => (y i h - M i * unitCosine q h) ^ 2] at key
  exact wind_runs_near (courses_near (sum_sq_pos hM) key) hm h h' hi hk

/-! ## concrete cases -/

theorem cosDay_mean (x : ℝ) : (day24 fun h : Nat => 2 + x * Real.cos (Real.pi * ((h : ℝ) - 0) / 12)).sum / 24 = 2 := by
  rw [sum_day24_add (fun _ => (2 : ℝ)), sum_day24_mul, cos_day_sum]
  norm_num [day24]

/-- a day with the wind speed 2 + x cos (π h / 12): the fit succeeds -/
theorem cosDay_fit (x : ℝ) : ∃ p, fitCosineFunction bestCosine (hourlyS 0 1 fun _ h => .fin (2 + x * Real.cos (Real.pi * ((h : ℝ) - 0) / 12))) = .ok p := by
  unfold fitCosineFunction
  rw [fitRows_hourly 0 1 fun _ h => 2 + x * Real.cos (Real.pi * ((h : ℝ) - 0) / 12), hour_rows (M := fun _ => 2) fun _ _ => cosDay_mean x]
  show ∃ p, bestCosine _ = .ok p
  unfold bestCosine
  rw [dif_pos]
  · exact ⟨_, rfl⟩
  · refine ⟨(x / 2, 1, 0), ?_⟩
    intro q
    refine (le_of_eq ?_).trans (List.sum_nonneg ?_)
    · apply List.sum_eq_zero
      intro z hz
      simp only [List.map_map, List.mem_map, Function.comp_def] at hz
      obtain ⟨k, _, rfl⟩ := hz
      rw [Int.cast_natCast]
      ring
    · intro z hz
      obtain ⟨k, _, rfl⟩ := List.mem_map.1 hz
      positivity

/-- C173: a day with the wind speed 2 + cos (π h / 12) and one with 2 + 1.5 cos (π h / 12): the hours disaggregated from a mean of 4 differ by at most 4 √(3 / 32) < 1.23 -/
example : ∃ p p', fitCosineFunction bestCosine (hourlyS 0 1 fun _ h => .fin (2 + 1 * Real.cos (Real.pi * ((h : ℝ) - 0) / 12))) = .ok p ∧
    fitCosineFunction bestCosine (hourlyS 0 1 fun _ h => .fin (2 + 1.5 * Real.cos (Real.pi * ((h : ℝ) - 0) / 12))) = .ok p' ∧ ∃ r r',
    disaggregateWind .modern (fun _ => 0) (dailyS 7 1 fun _ => .fin 4) "cosine" (some p.1) (some p.2.1) (some p.2.2) = .ok r ∧
    disaggregateWind .modern (fun _ => 0) (dailyS 7 1 fun _ => .fin 4) "cosine" (some p'.1) (some p'.2.1) (some p'.2.2) = .ok r' ∧
    ∀ k < 24, ∃ c c', r.values[k]? = some c ∧ r'.values[k]? = some c' ∧ Near (1.23 : ℝ) c c' := by
  obtain ⟨p, hp⟩ := cosDay_fit 1
  obtain ⟨p', hp'⟩ := cosDay_fit 1.5
  obtain ⟨l, h, -⟩ := C33_wind_cosine_mean .modern (fun _ => 0) 7 1 (by omega) (fun _ => .fin 4) p.1 p.2.1 p.2.2
  obtain ⟨l', h', -⟩ := C33_wind_cosine_mean .modern (fun _ => 0) 7 1 (by omega) (fun _ => .fin 4) p'.1 p'.2.1 p'.2.2
  refine ⟨p, p', hp, hp', _, _, h, h', ?_⟩
  intro k hk
  obtain ⟨c, c', e, e', -, hb⟩ := C173_wind (y := fun _ h => 2 + 1 * Real.cos (Real.pi * ((h : ℝ) - 0) / 12)) (y' := fun _ h => 2 + 1.5 * Real.cos (Real.pi * ((h : ℝ) - 0) / 12))
    bestCosine bestCosine bestCosine_leastSquares bestCosine_leastSquares hp hp' (M := fun _ => 2) (fun _ _ => cosDay_mean 1) (fun _ _ => cosDay_mean 1.5) ⟨0, by omega, by norm_num⟩
    (by omega) h h' (i := 0) (by omega) hk
  rw [Nat.mul_zero, Nat.zero_add] at e e'
  refine ⟨c, c', e, e', Near.weaken ?_ (hb 4 rfl)⟩
  have e1 : (day24 fun h : Nat => (2 + 1 * Real.cos (Real.pi * ((h : ℝ) - 0) / 12) - (2 + 1.5 * Real.cos (Real.pi * ((h : ℝ) - 0) / 12))) ^ 2).sum = 3 := by
    rw [show (fun h : Nat => (2 + 1 * Real.cos (Real.pi * ((h : ℝ) - 0) / 12) - (2 + 1.5 * Real.cos (Real.pi * ((h : ℝ) - 0) / 12))) ^ 2) =
      fun h : Nat => 0.25 * Real.cos (Real.pi * ((h : ℝ) - 0) / 12) ^ 2 by funext h; ring, sum_day24_mul, cos_sq_day_sum]
    norm_num
  rw [List.range_one, List.map_singleton, List.map_singleton, List.sum_singleton, List.sum_singleton, e1, abs_of_pos (by norm_num)]
  have : Real.sqrt (3 / (8 * 2 ^ 2)) ≤ 0.307 := by
    rw [Real.sqrt_le_left (by norm_num)]
    norm_num
  linarith

/-- C173: the parameters fitted to 2 + cos (π h / 12), and the parameters 3/4, 1, 0, whose course is 2 + 1.5 cos (π h / 12) -/
example : ∃ p, fitCosineFunction bestCosine (hourlyS 0 1 fun _ h => .fin (2 + 1 * Real.cos (Real.pi * ((h : ℝ) - 0) / 12))) = .ok p ∧ ∃ r r',
    disaggregateWind .modern (fun _ => 0) (dailyS 7 1 fun _ => .fin 4) "cosine" (some p.1) (some p.2.1) (some p.2.2) = .ok r ∧
    disaggregateWind .modern (fun _ => 0) (dailyS 7 1 fun _ => .fin 4) "cosine" (some (3 / 4)) (some 1) (some 0) = .ok r' ∧
    ∀ k < 24, ∃ c c', r.values[k]? = some c ∧ r'.values[k]? = some c' ∧ Near (1.23 : ℝ) c c' := by
  obtain ⟨p, hp⟩ := cosDay_fit 1
  obtain ⟨l, h, -⟩ := C33_wind_cosine_mean .modern (fun _ => 0) 7 1 (by omega) (fun _ => .fin 4) p.1 p.2.1 p.2.2
  obtain ⟨l', h', -⟩ := C33_wind_cosine_mean .modern (fun _ => 0) 7 1 (by omega) (fun _ => .fin 4) (3 / 4) 1 0
  refine ⟨p, hp, _, _, h, h', ?_⟩
  intro k hk
  obtain ⟨c, c', e, e', -, hb⟩ := C173_truth (y := fun _ h => 2 + 1 * Real.cos (Real.pi * ((h : ℝ) - 0) / 12))
    bestCosine bestCosine_leastSquares hp (3 / 4, 1, 0) (M := fun _ => 2) (fun _ _ => cosDay_mean 1) ⟨0, by omega, by norm_num⟩
    (by omega) h h' (i := 0) (by omega) hk
  rw [Nat.mul_zero, Nat.zero_add] at e e'
  refine ⟨c, c', e, e', Near.weaken ?_ (hb 4 rfl)⟩
  have e1 : (day24 fun h : Nat => (2 + 1 * Real.cos (Real.pi * ((h : ℝ) - 0) / 12) - 2 * unitCosine (3 / 4, 1, 0) h) ^ 2).sum = 3 := by
    rw [show (fun h : Nat => (2 + 1 * Real.cos (Real.pi * ((h : ℝ) - 0) / 12) - 2 * unitCosine (3 / 4, 1, 0) h) ^ 2) =
      fun h : Nat => 0.25 * Real.cos (Real.pi * ((h : ℝ) - 0) / 12) ^ 2 by funext h; unfold unitCosine; ring, sum_day24_mul, cos_sq_day_sum]
    norm_num
  rw [List.range_one, List.map_singleton, List.map_singleton, List.sum_singleton, List.sum_singleton, e1, abs_of_pos (by norm_num)]
  have : Real.sqrt (3 / (8 * 2 ^ 2)) ≤ 0.307 := by
    rw [Real.sqrt_le_left (by norm_num)]
    norm_num
  linarith

/-- C173: errors of at most 1/2 per hour and the mean 2: the hours of a day with the mean 4 differ by at most √3 -/
example : ∃ p p', fitCosineFunction bestCosine (hourlyS 0 1 fun _ h => .fin (2 + 1 * Real.cos (Real.pi * ((h : ℝ) - 0) / 12))) = .ok p ∧
    fitCosineFunction bestCosine (hourlyS 0 1 fun _ h => .fin (2 + 1.5 * Real.cos (Real.pi * ((h : ℝ) - 0) / 12))) = .ok p' ∧ ∃ r r',
    disaggregateWind .modern (fun _ => 0) (dailyS 7 1 fun _ => .fin 4) "cosine" (some p.1) (some p.2.1) (some p.2.2) = .ok r ∧
    disaggregateWind .modern (fun _ => 0) (dailyS 7 1 fun _ => .fin 4) "cosine" (some p'.1) (some p'.2.1) (some p'.2.2) = .ok r' ∧
    ∀ k < 24, ∃ c c', r.values[k]? = some c ∧ r'.values[k]? = some c' ∧ Near (Real.sqrt 3 * |4| * (1 / 2) / 2) c c' := by
  obtain ⟨p, hp⟩ := cosDay_fit 1
  obtain ⟨p', hp'⟩ := cosDay_fit 1.5
  obtain ⟨l, h, -⟩ := C33_wind_cosine_mean .modern (fun _ => 0) 7 1 (by omega) (fun _ => .fin 4) p.1 p.2.1 p.2.2
  obtain ⟨l', h', -⟩ := C33_wind_cosine_mean .modern (fun _ => 0) 7 1 (by omega) (fun _ => .fin 4) p'.1 p'.2.1 p'.2.2
  refine ⟨p, p', hp, hp', _, _, h, h', ?_⟩
  intro k hk
  obtain ⟨c, c', e, e', -, hb⟩ := C173_per_hour (y := fun _ h => 2 + 1 * Real.cos (Real.pi * ((h : ℝ) - 0) / 12)) (y' := fun _ h => 2 + 1.5 * Real.cos (Real.pi * ((h : ℝ) - 0) / 12))
    bestCosine bestCosine bestCosine_leastSquares bestCosine_leastSquares hp hp' (M := fun _ => 2) (fun _ _ => cosDay_mean 1) (fun _ _ => cosDay_mean 1.5) (by omega)
    (ε := 1 / 2) (μ := 2) (by norm_num) (fun _ _ => by norm_num) (by
      intro _ _ h _
      have := Real.abs_cos_le_one (Real.pi * ((h : ℝ) - 0) / 12)
      rw [show 2 + 1 * Real.cos (Real.pi * ((h : ℝ) - 0) / 12) - (2 + 1.5 * Real.cos (Real.pi * ((h : ℝ) - 0) / 12)) = -(1 / 2) * Real.cos (Real.pi * ((h : ℝ) - 0) / 12) by ring, abs_mul]
      norm_num at this ⊢
      linarith)
    (by omega) h h' (i := 0) (by omega) hk
  rw [Nat.mul_zero, Nat.zero_add] at e e'
  exact ⟨c, c', e, e', hb 4 rfl⟩

end

end Melodist
