import Verif.Props.RefitAng

/-!
# C175 (squares): radiation from calibrated Angstroem parameters varies at most as much as the observations
-/

set_option linter.unusedSectionVars false

namespace Melodist
open Spec

noncomputable section

variable {curveFit : (ℝ → ℝ → List (XF ℝ)) → List (XF ℝ) → ℝ × ℝ → Py (XF ℝ × XF ℝ)}

/-- **C175** (squares) With the fit and the disaggregation of C175, the sum of squares of the daily means of the result is at most that of the observations. -/
theorem C175_squares (hfit : LeastSquares curveFit) {api : PandasApi} {daily : Frame ℝ} {d0 : Int} {n : Nat} (hi : daily.index = (List.range n).map fun i : Nat => at00 (d0 + i)) (hn : 0 < n)
    {s l o : Nat → ℝ} {q : Nat → Nat → ℝ} (hs : daily.col? "ssd" = some (dailyS d0 n fun i => .fin (s i))) {st : Nat → SunTimes} (hst : ∀ i < n, (st i).daylength = .fin (l i))
    (hl : ∀ i < n, 0 < l i) (hq0 : ∀ i < n, ∀ h < 24, 0 ≤ q i h) (hpos : ∀ i < n, 0 < (day24 (q i)).sum) {a b : ℝ}
    (hp : fitAngstroem curveFit (dailyS d0 n fun i => .fin (s i)) (dailyS d0 n fun i => .fin (l i)) (Series.resampleD meanSkip (hourlyS d0 n fun i h => .fin (q i h)))
      (dailyS d0 n fun i => .fin (o i)) = .ok (.fin a, .fin b)) (hest : ∀ i < n, 0 ≤ a + b * s i / l i) {bc : ParPair ℝ} {course : Option (MeanCourse ℝ)} :
    ∃ v : Nat → Nat → ℝ, disaggregateRadiation api daily (some (dailyS d0 n st)) (some (hourlyS d0 n fun i h => .fin (q i h))) "pot_rad_via_ssd" (.scalar (.fin a) (.fin b)) bc course =
        .ok (hourlyS d0 n fun i h => .fin (v i h)) ∧
      ((List.range n).map fun i => ((day24 (v i)).sum / 24) ^ 2).sum ≤ ((List.range n).map fun i => o i ^ 2).sum := by
  have hQ : ∀ i < n, 0 < (day24 (q i)).sum / 24 := fun i h => div_pos (hpos i h) (by norm_num)
  let Q : Nat → ℝ := fun i => (day24 (q i)).sum / 24
  let e : Nat → ℝ := fun i => (a + b * s i / l i) * Q i
  let v : Nat → Nat → ℝ := fun i h => if q i h / Q i * e i < 0.01 then 0 else q i h / Q i * e i
  have he : ∀ i < n, 0 ≤ e i := fun i h => mul_nonneg (hest i h) (hQ i h).le
  refine ⟨v, ?_, ?_⟩
  · rw [ssd_formula api hi hn hs hst hl a b bc course]
    congr 1
    apply hourlyS_congr
    intro i hi' h _
    exact radCell_fin (hQ i hi')
  rw [potMeans] at hp
  have S := recordDays_sample d0 n s l Q o
  have tn' : ∀ i : Nat, (d0 + (i : Int) - d0).toNat = i := fun i => by omega
  obtain ⟨a1, b1, e1, _, n1, n2⟩ := C93_least_squares hfit S (by
    intro d hd
    obtain ⟨i, hi, rfl⟩ := List.mem_map.1 hd
    rw [tn']
    exact (hl i (List.mem_range.1 hi)).ne') hp
  cases e1
  unfold recordDays at n1 n2
  rw [List.map_map] at n1 n2
  simp only [Function.comp_def, angEst, tn'] at n1 n2
  have hsq : ((List.range n).map fun i => o i ^ 2).sum = ((List.range n).map fun i => e i ^ 2).sum + ((List.range n).map fun i => (o i - e i) ^ 2).sum := by
    have : ((List.range n).map fun i => o i ^ 2) = (List.range n).map fun i => (e i ^ 2 + (o i - e i) ^ 2) +
        (-2 * a * (Q i * ((a + b * s i / l i) * Q i - o i)) + -2 * b * (s i / l i * Q i * ((a + b * s i / l i) * Q i - o i))) := by
      apply List.map_congr_left
      intro i _
      simp only [e]
      ring
    rw [this, List.sum_map_add, List.sum_map_add, List.sum_map_add, List.sum_map_mul_left, List.sum_map_mul_left, n1, n2]
    ring
  have hvb : ∀ i < n, ∀ h < 24, 0 ≤ v i h ∧ v i h ≤ e i / Q i * q i h := by
    intro i hi' h hh
    have h0 : 0 ≤ q i h / Q i * e i := mul_nonneg (div_nonneg (hq0 i hi' h hh) (hQ i hi').le) (he i hi')
    have hc : e i / Q i * q i h = q i h / Q i * e i := by ring
    rw [hc]
    simp only [v]
    split_ifs
    · exact ⟨le_rfl, h0⟩
    · exact ⟨h0, le_rfl⟩
  have hy : ∀ i < n, 0 ≤ (day24 (v i)).sum / 24 ∧ (day24 (v i)).sum / 24 ≤ e i := by
    intro i hi'
    constructor
    · refine div_nonneg (List.sum_nonneg ?_) (by norm_num)
      intro x hx
      obtain ⟨h, hh, rfl⟩ := mem_day24.1 hx
      exact (hvb i hi' h hh).1
    · have h1 : (day24 (v i)).sum ≤ (day24 fun h => e i / Q i * q i h).sum := List.sum_le_sum fun h hh => (hvb i hi' h (List.mem_range.1 hh)).2
      rw [sum_day24_mul] at h1
      have h2 : e i / Q i * (day24 (q i)).sum / 24 = e i := by
        have : Q i ≠ 0 := (hQ i hi').ne'
        rw [mul_div_assoc]
        exact div_mul_cancel₀ _ this
      calc (day24 (v i)).sum / 24 ≤ e i / Q i * (day24 (q i)).sum / 24 := div_le_div_of_nonneg_right h1 (by norm_num)
        _ = e i := h2
  have h1 : ((List.range n).map fun i => ((day24 (v i)).sum / 24) ^ 2).sum ≤ ((List.range n).map fun i => e i ^ 2).sum :=
    List.sum_le_sum fun i hi => pow_le_pow_left₀ (hy i (List.mem_range.1 hi)).1 (hy i (List.mem_range.1 hi)).2 2
  have h2 : 0 ≤ ((List.range n).map fun i => (o i - e i) ^ 2).sum := List.sum_nonneg (by
    intro x hx
    obtain ⟨i, _, rfl⟩ := List.mem_map.1 hx
    positivity)
  linarith

/-- Two days with 6 and 12 of 12 hours of sunshine, a mean potential of 10 W/m2 and observations of 5 and 7.5 W/m2: the squares of the daily means of the result add up to at most 25 + 56.25. -/
example : ∃ (a b : ℝ) (v : Nat → Nat → ℝ), fitAngstroem bestFit (dailyS 0 2 fun i => .fin (if i = 0 then 6 else 12)) (dailyS 0 2 fun _ => .fin 12)
      (Series.resampleD meanSkip (hourlyS 0 2 fun _ h => .fin (exPotReal h))) (dailyS 0 2 fun i => .fin ((1 / 4 + 1 / 2 * (if i = 0 then 6 else 12) / 12) * 10)) = .ok (.fin a, .fin b) ∧
    disaggregateRadiation .modern exRad (some (dailyS 0 2 fun _ => ⟨.fin 6, .fin 12, .fin 18, .fin 12⟩)) (some (hourlyS 0 2 fun _ h => .fin (exPotReal h))) "pot_rad_via_ssd"
      (.scalar (.fin a) (.fin b)) (.scalar (.fin 0) (.fin 0)) none = .ok (hourlyS 0 2 fun i h => .fin (v i h)) ∧
    ((day24 (v 0)).sum / 24) ^ 2 + ((day24 (v 1)).sum / 24) ^ 2 ≤ 25 + 56.25 := by
  have hQ : (10 : ℝ) = (day24 exPotReal).sum / 24 := by
    rw [exPot_sum]
    norm_num
  have hpot : Series.resampleD meanSkip (hourlyS 0 2 fun _ h => XF.fin (exPotReal h)) = dailyS 0 2 fun _ => .fin 10 := by
    rw [potMeans 0 2 fun _ => exPotReal, ← hQ]
  obtain ⟨p, hp⟩ := bestFit_exact 0 2 (s := fun i => if i = 0 then 6 else 12) (l := fun _ => 12) (Q := fun _ => 10) (fun _ _ => by norm_num) (1 / 4) (1 / 2)
  have := C93_recovers bestFit_leastSquares (recordDays_sample 0 2 (fun i => if i = 0 then 6 else 12) (fun _ => 12) (fun _ => 10) fun i => (1 / 4 + 1 / 2 * (if i = 0 then 6 else 12) / 12) * 10)
    (fun _ _ => by norm_num) hp (d := 0) (d' := 1) (by decide) (by decide) (by norm_num) (by norm_num) (by norm_num) (a := 1 / 4) (b := 1 / 2) (fun _ _ => rfl)
  subst this
  rw [← hpot] at hp
  obtain ⟨v, h, h1⟩ := C175_squares bestFit_leastSquares (api := .modern) (daily := exRad) (d0 := 0) (n := 2) rfl (by norm_num) (s := fun i => if i = 0 then 6 else 12) (l := fun _ => 12)
    (q := fun _ h => exPotReal h) (by rfl) (st := fun _ => ⟨.fin 6, .fin 12, .fin 18, .fin 12⟩) (fun _ _ => rfl) (fun _ _ => by norm_num)
    (fun _ _ => exPot_nonneg) (fun _ _ => by rw [show (fun h => exPotReal h) = exPotReal from rfl, exPot_sum]; norm_num) hp (fun i _ => by split_ifs <;> norm_num) (bc := .scalar (.fin 0) (.fin 0)) (course := none)
  refine ⟨1 / 4, 1 / 2, v, hp, h, ?_⟩
  simp only [List.range_succ, List.range_zero, List.nil_append, List.cons_append, List.map_cons, List.map_nil, List.sum_cons, List.sum_nil] at h1
  norm_num at h1 ⊢
  linarith

end

end Melodist
