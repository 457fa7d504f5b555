import Verif.Model.RegressionStats
import Verif.Props.FitErrors

/-!
# C181: the statistics of the linear regression
-/

set_option linter.unusedSectionVars false

namespace Melodist
open Spec

noncomputable section

/-- the sum of squared deviations of the y values from their mean -/
def Spec.totalSquares (pts : List (ℝ × ℝ)) : ℝ := (pts.map fun p => (p.2 - (pts.map Prod.snd).sum / pts.length) ^ 2).sum

/-- the sum of squared deviations of the x values from their mean -/
def Spec.xSquares (pts : List (ℝ × ℝ)) : ℝ := (pts.map fun p => (p.1 - (pts.map Prod.fst).sum / pts.length) ^ 2).sum

/-- the sum of squared differences between the line and the points -/
def Spec.errorSquares (pts : List (ℝ × ℝ)) (a1 a0 : ℝ) : ℝ := (pts.map fun p => (a1 * p.1 + a0 - p.2) ^ 2).sum

/-- the error of the regression line in terms of the centred sums -/
theorem errorSquares_centred (pts : List (ℝ × ℝ)) {mx my X Y Z s : ℝ} (hX : (pts.map fun p => (p.1 - mx) * (p.1 - mx)).sum = X) (hY : (pts.map fun p => (p.1 - mx) * (p.2 - my)).sum = Y)
    (hZ : (pts.map fun p => (p.2 - my) * (p.2 - my)).sum = Z) : errorSquares pts s (my - s * mx) = s ^ 2 * X + -2 * s * Y + Z := by
  unfold errorSquares
  rw [← hX, ← hY, ← hZ, ← List.sum_map_mul_left, ← List.sum_map_mul_left, ← List.sum_map_add, ← List.sum_map_add]
  congr 1
  apply List.map_congr_left
  intro p _
  ring

/-- **C181** linregress with `return_stats=True` on points with two different x values returns (a1, a0, r, p, stderr) with the line (a1, a0) of linregress without statistics, and: r is in [-1, 1] and has the sign
of a1 (or is 0); the squared error of the line is (1 - r²) times the squared deviations of the y values from their mean; stderr is not negative; with more than two points stderr² (n - 2) times the squared
deviations of the x values is the squared error of the line, and with two points stderr is 0. -/
theorem C181_statistics (prob : ℝ → Nat → ℝ) {pts : List (ℝ × ℝ)} (hne : ∃ p ∈ pts, ∃ q ∈ pts, p.1 ≠ q.1) :
    ∃ a1 a0 r p e : ℝ, linregress pts = .ok (.fin a1, .fin a0) ∧ linregressStats prob pts = .ok (.fin a1, .fin a0, .fin r, .fin p, .fin e) ∧
      |r| ≤ 1 ∧ 0 ≤ r * a1 ∧ (r = 0 ↔ a1 = 0) ∧ errorSquares pts a1 a0 = (1 - r ^ 2) * totalSquares pts ∧
      0 ≤ e ∧ (2 < pts.length → e ^ 2 * (pts.length - 2) * xSquares pts = errorSquares pts a1 a0) ∧ (pts.length = 2 → e = 0 ∧ errorSquares pts a1 a0 = 0) := by
  obtain ⟨a1, a0, hl, hbest⟩ := linregress_spec pts hne
  obtain ⟨hX, h1, h0⟩ := linregress_val hne hl
  have hlen : 2 ≤ pts.length := by
    obtain ⟨p, hp, q, hq, hpq⟩ := hne
    match pts, hp, hq with
    | [x], hp, hq =>
      rw [List.mem_singleton] at hp hq
      exact absurd (by rw [hp, hq]) hpq
    | _ :: _ :: _, _, _ => simp
  have hn : (0 : ℝ) < pts.length := by exact_mod_cast (by omega : 0 < pts.length)
  have hT : totalSquares pts = (pts.map fun p => (p.2 - (pts.map Prod.snd).sum / pts.length) * (p.2 - (pts.map Prod.snd).sum / pts.length)).sum := by
    unfold totalSquares
    simp only [sq]
  have hXs : xSquares pts = (pts.map fun p => (p.1 - (pts.map Prod.fst).sum / pts.length) * (p.1 - (pts.map Prod.fst).sum / pts.length)).sum := by
    unfold xSquares
    simp only [sq]
  have herr := errorSquares_centred pts (s := a1) (mx := (pts.map Prod.fst).sum / pts.length) (my := (pts.map Prod.snd).sum / pts.length) rfl rfl rfl
  rw [← h0] at herr
  have hE0 : 0 ≤ errorSquares pts a1 a0 := List.sum_nonneg (by
    intro x hx
    obtain ⟨p, _, rfl⟩ := List.mem_map.1 hx
    positivity)
  have hZ0 : 0 ≤ (pts.map fun p => (p.2 - (pts.map Prod.snd).sum / pts.length) * (p.2 - (pts.map Prod.snd).sum / pts.length)).sum := List.sum_nonneg (by
    intro x hx
    obtain ⟨p, _, rfl⟩ := List.mem_map.1 hx
    exact mul_self_nonneg _)
  unfold linregressStats
  rw [hl, py_ok_bind]
  dsimp only
  rw [hT, hXs]
  generalize (pts.map fun p => (p.1 - (pts.map Prod.fst).sum / pts.length) * (p.1 - (pts.map Prod.fst).sum / pts.length)).sum = X at *
  generalize (pts.map fun p => (p.1 - (pts.map Prod.fst).sum / pts.length) * (p.2 - (pts.map Prod.snd).sum / pts.length)).sum = Y at *
  generalize (pts.map fun p => (p.2 - (pts.map Prod.snd).sum / pts.length) * (p.2 - (pts.map Prod.snd).sum / pts.length)).sum = Z at *
  clear hT hXs
  have hEY : errorSquares pts a1 a0 = Z - Y ^ 2 / X := by
    rw [herr, h1]
    field_simp
    ring
  have hCS : Y ^ 2 ≤ X * Z := by
    have : Y ^ 2 / X ≤ Z := by linarith
    rw [div_le_iff₀ hX] at this
    linarith
  -- the correlation
  obtain ⟨r, hr, r1, r2, r3, r4⟩ : ∃ r : ℝ, (if X / (pts.length : ℝ) = 0 ∨ Z / (pts.length : ℝ) = 0 then (0 : ℝ) else
      if 1 < Y / pts.length / Real.sqrt (X / pts.length * (Z / pts.length)) then 1 else
      if Y / pts.length / Real.sqrt (X / pts.length * (Z / pts.length)) < -1 then -1 else Y / pts.length / Real.sqrt (X / pts.length * (Z / pts.length))) = r ∧
      |r| ≤ 1 ∧ 0 ≤ r * a1 ∧ (r = 0 ↔ a1 = 0) ∧ r ^ 2 * Z = Y ^ 2 / X := by
    have hXn : X / (pts.length : ℝ) ≠ 0 := (div_pos hX hn).ne'
    rcases hZ0.lt_or_eq with hZ | hZ
    · have hs : Real.sqrt (X / pts.length * (Z / pts.length)) = Real.sqrt (X * Z) / pts.length := by
        rw [div_mul_div_comm, Real.sqrt_div' _ (by positivity), Real.sqrt_mul_self hn.le]
      have hS : 0 < Real.sqrt (X * Z) := Real.sqrt_pos.2 (mul_pos hX hZ)
      have hval : Y / pts.length / Real.sqrt (X / pts.length * (Z / pts.length)) = Y / Real.sqrt (X * Z) := by
        rw [hs]
        field_simp
      have habs : |Y / Real.sqrt (X * Z)| ≤ 1 := by
        rw [abs_div, abs_of_pos hS, div_le_one hS]
        exact Real.abs_le_sqrt hCS
      refine ⟨Y / Real.sqrt (X * Z), ?_, habs, ?_, ?_, ?_⟩
      · rw [if_neg (by rintro (h | h); exacts [hXn h, (div_pos hZ hn).ne' h]), hval, if_neg (not_lt.2 (abs_le.1 habs).2), if_neg (not_lt.2 (abs_le.1 habs).1)]
      · rw [h1, div_mul_div_comm]
        exact div_nonneg (mul_self_nonneg _) (by positivity)
      · rw [h1, div_eq_zero_iff, div_eq_zero_iff]
        simp [hS.ne', hX.ne']
      · rw [div_pow, Real.sq_sqrt (by positivity)]
        field_simp
    · have hY : Y = 0 := by
        rw [← hZ, mul_zero] at hCS
        exact pow_eq_zero_iff two_ne_zero |>.1 (le_antisymm hCS (sq_nonneg Y))
      refine ⟨0, ?_, by simp, by simp, ?_, ?_⟩
      · rw [if_pos (.inr (by rw [← hZ, zero_div]))]
      · rw [h1, hY, zero_div]
      · rw [hY]
        simp
  rw [hr]
  have hErr : errorSquares pts a1 a0 = (1 - r ^ 2) * Z := by
    rw [hEY, ← r4]
    ring
  have hr1 : 0 ≤ 1 - r ^ 2 := by
    have := (sq_le_one_iff_abs_le_one r).2 r1
    linarith
  clear hr
  match pts, hlen with
  | [p, q], _ =>
    refine ⟨a1, a0, r, _, 0, rfl, rfl, r1, r2, r3, hErr, le_rfl, fun h => absurd h (by simp), fun _ => ⟨rfl, ?_⟩⟩
    have hpq : p.1 ≠ q.1 := by
      obtain ⟨x, hx, y, hy, hxy⟩ := hne
      intro e
      apply hxy
      simp only [List.mem_cons, List.not_mem_nil, or_false] at hx hy
      rcases hx with rfl | rfl <;> rcases hy with rfl | rfl <;> simp [e]
    have hsub : p.1 - q.1 ≠ 0 := sub_ne_zero.2 hpq
    have hle := (hbest ((p.2 - q.2) / (p.1 - q.1)) (p.2 - (p.2 - q.2) / (p.1 - q.1) * p.1)).1
    refine le_antisymm ?_ hE0
    have z1 : errorSquares [p, q] ((p.2 - q.2) / (p.1 - q.1)) (p.2 - (p.2 - q.2) / (p.1 - q.1) * p.1) = 0 := by
      simp only [errorSquares, List.map_cons, List.map_nil, List.sum_cons, List.sum_nil]
      field_simp
      ring
    have conv : ∀ s c, residuals [p, q] s c = errorSquares [p, q] s c := by
      intro s c
      simp only [residuals, errorSquares, List.map_cons, List.map_nil, List.sum_cons, List.sum_nil]
    rw [conv, conv, z1] at hle
    exact hle
  | p :: q :: z :: l, _ =>
    refine ⟨a1, a0, r, _, _, rfl, rfl, r1, r2, r3, hErr, Real.sqrt_nonneg _, fun _ => ?_, fun h => absurd h (by simp)⟩
    have hdf : (((p :: q :: z :: l).length - 2 : Nat) : ℝ) = ((p :: q :: z :: l).length : ℝ) - 2 := by
      rw [Nat.cast_sub (by simp)]
      norm_num
    have hpos : (0 : ℝ) < ((p :: q :: z :: l).length : ℝ) - 2 := by
      have : (0 : ℝ) ≤ l.length := Nat.cast_nonneg _
      simp only [List.length_cons]
      push_cast
      linarith
    rw [hdf, Real.sq_sqrt, hErr]
    · field_simp
    · positivity

/-- C181 (dew points).  If calculate_dewpoint_regression returns something with `return_stats=True`, the first two values are what it returns without statistics. -/
theorem C181_dewpoint (prob : ℝ → Nat → ℝ) {obs : Frame ℝ} {a1 a0 r p e : XF ℝ} (h : dewpointRegressionStats prob obs = .ok (a1, a0, r, p, e)) : dewpointRegression obs = .ok (a1, a0) := by
  have key : ∀ pts, linregressStats prob pts = .ok (a1, a0, r, p, e) → linregress pts = .ok (a1, a0) := by
    intro pts h
    unfold linregressStats at h
    cases hl : linregress pts with
    | error x => rw [hl] at h; cases h
    | ok v =>
      rw [hl, py_ok_bind] at h
      dsimp only at h
      split at h
      · cases h
      · cases h; rfl
      · cases h; rfl
  unfold dewpointRegressionStats at h
  unfold dewpointRegression
  cases h1 : obs.item "temp" with
  | error x => rw [h1] at h; cases h
  | ok temp =>
    cases h2 : obs.item "hum" with
    | error x => rw [h1, py_ok_bind, h2] at h; cases h
    | ok hum =>
      rw [h1, py_ok_bind, h2, py_ok_bind] at h
      rw [py_ok_bind, py_ok_bind]
      cases h3 : dewpointTemperature temp.values hum.values with
      | error x => rw [h3] at h; cases h
      | ok td =>
        rw [h3, py_ok_bind] at h
        rw [py_ok_bind]
        dsimp only at h ⊢
        generalize List.mapM finPoint _ = m at h ⊢
        cases m with
        | error x => cases h
        | ok pts => exact key pts h

/-- The points (0, 0), (1, 2), (2, 1): slope 1/2, and the line explains a quarter of the variance. -/
example : ∃ a1 a0 r p e : ℝ, linregressStats (fun _ _ => 0) [(0, 0), (1, 2), (2, 1)] = .ok (.fin a1, .fin a0, .fin r, .fin p, .fin e) ∧ a1 = 1 / 2 ∧ r ^ 2 = 1 / 4 ∧ e ^ 2 = 3 / 4 := by
  obtain ⟨a1, a0, r, p, e, hl, hs, _, _, _, h1, _, h2, _⟩ := C181_statistics (fun _ _ => 0) (pts := [(0, 0), (1, 2), (2, 1)]) ⟨(0, 0), by simp, (1, 2), by simp, by norm_num⟩
  obtain ⟨_, v1, v0⟩ := linregress_val ⟨(0, 0), by simp, (1, 2), by simp, by norm_num⟩ hl
  norm_num at v1 v0
  subst v1
  norm_num at v0
  subst v0
  have h3 := h2 (by simp)
  norm_num [errorSquares, totalSquares, xSquares] at h1 h3
  exact ⟨_, _, r, p, e, hs, by norm_num, by linarith, by linarith⟩

end

end Melodist
