import Verif.Props.DewTotal
import Verif.Props.FitErrorsE

/-!
# C179: wind from a calibrated cosine keeps the daily course of the observations
-/

set_option linter.unusedSectionVars false

namespace Melodist
open Spec

noncomputable section

/-- the sum of two cosines of the daily period is one -/
theorem two_cosines (a s t c : ℝ) : ∃ r u : ℝ, ∀ h : ℝ, r * Real.cos (Real.pi * (h - u) / 12) = a * Real.cos (Real.pi * (h - s) / 12) + t * Real.cos (Real.pi * (h - c) / 12) := by
  obtain ⟨r, u, e⟩ := amp_phase (a * Real.cos (Real.pi * s / 12) + t * Real.cos (Real.pi * c / 12)) (a * Real.sin (Real.pi * s / 12) + t * Real.sin (Real.pi * c / 12))
  refine ⟨r, u, fun h => ?_⟩
  rw [e, show Real.pi * (h - s) / 12 = Real.pi * h / 12 - Real.pi * s / 12 by ring, show Real.pi * (h - c) / 12 = Real.pi * h / 12 - Real.pi * c / 12 by ring, Real.cos_sub, Real.cos_sub]
  ring

/-- **C179** The cosine is fitted to a complete hourly record `f` of `n` days with daily means `M`, and the daily means are disaggregated by 'cosine' with the result.  For every hour `c`, the values `w` of the
result have the same sum of products with M cos(π (h - c) / 12) as the observations: the amplitude and the phase of the daily course, weighted with the daily means, are kept; and so is the sum of products with
the daily means.  The sum of squares of the observations is the sum of squares of the result plus the sum of squares of the differences (so it is not smaller than that of the result). -/
theorem C179_course_kept {api : PandasApi} {draw : Nat → ℝ} {optimise : List (ℝ × Int × ℝ) → Py (ℝ × ℝ × ℝ)} (hopt : ∀ rows p, optimise rows = .ok p → IsLeastSquares rows p) {d0 : Int} {n : Nat} (hn : 0 < n)
    {f : Nat → Nat → ℝ} {M : Nat → ℝ} (hM : ∀ i < n, (day24 (f i)).sum / 24 = M i) {a b tShift : ℝ} (hfit : fitCosineFunction optimise (hourlyS d0 n fun i h => .fin (f i h)) = .ok (a, b, tShift)) :
    ∃ w : Nat → Nat → ℝ, disaggregateWind api draw (dailyS d0 n fun i => .fin (M i)) "cosine" (some a) (some b) (some tShift) = .ok (.array (Series.values (hourlyS d0 n fun i h => .fin (w i h)))) ∧
      (∀ c : ℝ, ((List.range (24 * n)).map fun k : Nat => M (k / 24) * Real.cos (Real.pi * (((k % 24 : Nat) : ℝ) - c) / 12) * w (k / 24) (k % 24)).sum =
        ((List.range (24 * n)).map fun k : Nat => M (k / 24) * Real.cos (Real.pi * (((k % 24 : Nat) : ℝ) - c) / 12) * f (k / 24) (k % 24)).sum) ∧
      ((List.range (24 * n)).map fun k : Nat => M (k / 24) * w (k / 24) (k % 24)).sum = ((List.range (24 * n)).map fun k : Nat => M (k / 24) * f (k / 24) (k % 24)).sum ∧
      ((List.range (24 * n)).map fun k : Nat => f (k / 24) (k % 24) ^ 2).sum =
        ((List.range (24 * n)).map fun k : Nat => w (k / 24) (k % 24) ^ 2).sum + ((List.range (24 * n)).map fun k : Nat => (f (k / 24) (k % 24) - w (k / 24) (k % 24)) ^ 2).sum := by
  unfold fitCosineFunction at hfit
  rw [fitRows_hourly d0 n f] at hfit
  have hls := hopt _ _ hfit
  rw [hour_rows hM] at hls
  let w : Nat → Nat → ℝ := fun i h => a * M i * Real.cos (Real.pi * ((h : ℝ) - tShift) / 12) + b * M i
  have hq : ∀ q : ℝ × ℝ × ℝ, ((List.range (24 * n)).map fun k : Nat => (w (k / 24) (k % 24) - f (k / 24) (k % 24)) ^ 2).sum ≤
      ((List.range (24 * n)).map fun k : Nat => (q.1 * M (k / 24) * Real.cos (Real.pi * (((k % 24 : Nat) : ℝ) - q.2.2) / 12) + q.2.1 * M (k / 24) - f (k / 24) (k % 24)) ^ 2).sum := by
    intro q
    have := hls q
    simpa only [List.map_map, Function.comp_def, Int.cast_natCast] using this
  have close : ∀ v : Nat → ℝ, ((List.range (24 * n)).map fun k : Nat => v k * (w (k / 24) (k % 24) - f (k / 24) (k % 24))).sum = 0 →
      ((List.range (24 * n)).map fun k : Nat => v k * w (k / 24) (k % 24)).sum = ((List.range (24 * n)).map fun k : Nat => v k * f (k / 24) (k % 24)).sum := by
    intro v hv
    have e : ((List.range (24 * n)).map fun k : Nat => v k * w (k / 24) (k % 24)) =
        (List.range (24 * n)).map fun k : Nat => v k * (w (k / 24) (k % 24) - f (k / 24) (k % 24)) + v k * f (k / 24) (k % 24) := by
      apply List.map_congr_left
      intro k _
      ring
    rw [e, List.sum_map_add, hv, zero_add]
  have o1 : ∀ c : ℝ, ((List.range (24 * n)).map fun k : Nat => M (k / 24) * Real.cos (Real.pi * (((k % 24 : Nat) : ℝ) - c) / 12) * (w (k / 24) (k % 24) - f (k / 24) (k % 24))).sum = 0 := by
    intro c
    apply residuals_orthogonal
    intro t
    obtain ⟨r, u, e⟩ := two_cosines a tShift t c
    refine (hq (r, b, u)).trans (le_of_eq ?_)
    congr 1
    apply List.map_congr_left
    intro k _
    dsimp only [w]
    rw [mul_right_comm r, e]
    ring
  have o2 : ((List.range (24 * n)).map fun k : Nat => M (k / 24) * (w (k / 24) (k % 24) - f (k / 24) (k % 24))).sum = 0 := by
    apply residuals_orthogonal
    intro t
    refine (hq (a, b + t, tShift)).trans (le_of_eq ?_)
    congr 1
    apply List.map_congr_left
    intro k _
    dsimp only [w]
    ring
  refine ⟨w, ?_, fun c => close _ (o1 c), close _ o2, ?_⟩
  · rw [wind_cosine api draw d0 n hn]
    congr 3
  · have e : ((List.range (24 * n)).map fun k : Nat => f (k / 24) (k % 24) ^ 2) =
        (List.range (24 * n)).map fun k : Nat => (w (k / 24) (k % 24) ^ 2 + (f (k / 24) (k % 24) - w (k / 24) (k % 24)) ^ 2) +
          (-2 * a * (M (k / 24) * Real.cos (Real.pi * (((k % 24 : Nat) : ℝ) - tShift) / 12) * (w (k / 24) (k % 24) - f (k / 24) (k % 24))) +
            -2 * b * (M (k / 24) * (w (k / 24) (k % 24) - f (k / 24) (k % 24)))) := by
      apply List.map_congr_left
      intro k _
      have hw : w (k / 24) (k % 24) = a * M (k / 24) * Real.cos (Real.pi * (((k % 24 : Nat) : ℝ) - tShift) / 12) + b * M (k / 24) := rfl
      generalize Real.cos (Real.pi * (((k % 24 : Nat) : ℝ) - tShift) / 12) = C at *
      rw [hw]
      ring
    rw [e, List.sum_map_add, List.sum_map_add, List.sum_map_add, List.sum_map_mul_left, List.sum_map_mul_left, o1, o2]
    ring

/-- C179 (variability).  The hourly results vary less around the daily means than the observations: the sum of squared deviations of the observations from their daily means is that of the result plus the sum of
squared differences of both. -/
theorem C179_variability {api : PandasApi} {draw : Nat → ℝ} {optimise : List (ℝ × Int × ℝ) → Py (ℝ × ℝ × ℝ)} (hopt : ∀ rows p, optimise rows = .ok p → IsLeastSquares rows p) {d0 : Int} {n : Nat} (hn : 0 < n)
    {f : Nat → Nat → ℝ} {M : Nat → ℝ} (hM : ∀ i < n, (day24 (f i)).sum / 24 = M i) {a b tShift : ℝ} (hfit : fitCosineFunction optimise (hourlyS d0 n fun i h => .fin (f i h)) = .ok (a, b, tShift)) :
    ∃ w : Nat → Nat → ℝ, disaggregateWind api draw (dailyS d0 n fun i => .fin (M i)) "cosine" (some a) (some b) (some tShift) = .ok (.array (Series.values (hourlyS d0 n fun i h => .fin (w i h)))) ∧
      ((List.range (24 * n)).map fun k : Nat => (f (k / 24) (k % 24) - M (k / 24)) ^ 2).sum =
        ((List.range (24 * n)).map fun k : Nat => (w (k / 24) (k % 24) - M (k / 24)) ^ 2).sum + ((List.range (24 * n)).map fun k : Nat => (f (k / 24) (k % 24) - w (k / 24) (k % 24)) ^ 2).sum := by
  obtain ⟨w, h, _, h1, h2⟩ := C179_course_kept (api := api) (draw := draw) hopt hn hM hfit
  refine ⟨w, h, ?_⟩
  have e : ∀ g : Nat → Nat → ℝ, ((List.range (24 * n)).map fun k : Nat => (g (k / 24) (k % 24) - M (k / 24)) ^ 2).sum =
      ((List.range (24 * n)).map fun k : Nat => g (k / 24) (k % 24) ^ 2).sum + -2 * ((List.range (24 * n)).map fun k : Nat => M (k / 24) * g (k / 24) (k % 24)).sum +
        ((List.range (24 * n)).map fun k : Nat => M (k / 24) ^ 2).sum := by
    intro g
    rw [← List.sum_map_mul_left, ← List.sum_map_add, ← List.sum_map_add]
    congr 1
    apply List.map_congr_left
    intro k _
    ring
  rw [e f, e w, h1, h2]
  ring

/-- a day with a wind speed of 2 + cos (π h / 12), in even hours 1/2 more and in odd hours 1/2 less -/
def unevenDay (h : Nat) : ℝ := 2 + Real.cos (Real.pi * ((h : ℝ) - 0) / 12) + if h % 2 = 0 then 1 / 2 else -(1 / 2)

/-- twelve hours later, the cosine has the other sign -/
theorem cos_half_day (x u : ℝ) : Real.cos (Real.pi * (x + 12 - u) / 12) = -Real.cos (Real.pi * (x - u) / 12) := by
  rw [show Real.pi * (x + 12 - u) / 12 = Real.pi * (x - u) / 12 + Real.pi by ring, Real.cos_add_pi]

theorem uneven_sum (f : Nat → ℝ) (A B C : ℝ) (hf : ∀ h < 12, f (h + 12) = C - f h) : (day24 fun h => f h * if h % 2 = 0 then A else B).sum = C * 6 * (A + B) := by
  have e : ∀ k h : Nat, k = h + 12 → h < 12 → f k = C - f h := by rintro k h rfl hh; exact hf h hh
  simp only [day24, List.range_succ, List.range_zero, List.nil_append, List.cons_append, List.map_cons, List.map_nil, List.sum_cons, List.sum_nil]
  rw [e 12 0 rfl (by omega), e 13 1 rfl (by omega), e 14 2 rfl (by omega), e 15 3 rfl (by omega), e 16 4 rfl (by omega), e 17 5 rfl (by omega), e 18 6 rfl (by omega), e 19 7 rfl (by omega),
    e 20 8 rfl (by omega), e 21 9 rfl (by omega), e 22 10 rfl (by omega), e 23 11 rfl (by omega)]
  norm_num
  ring

theorem unevenDay_mean : (day24 unevenDay).sum / 24 = 2 := by
  have h1 := uneven_sum (fun _ => 1) (1 / 2) (-(1 / 2)) 2 (fun _ _ => by norm_num)
  have h2 := cosDay_mean 1
  have e : (day24 unevenDay).sum = (day24 fun h : Nat => 2 + 1 * Real.cos (Real.pi * ((h : ℝ) - 0) / 12)).sum + (day24 fun h => 1 * if h % 2 = 0 then (1 / 2 : ℝ) else -(1 / 2)).sum := by
    rw [← sum_day24_add]
    congr 1
    apply day24_congr
    intro h _
    unfold unevenDay
    ring
  rw [e, h1]
  linarith

/-- the cosine fits this day best, although not exactly -/
theorem unevenDay_fit : IsLeastSquares ((List.range (24 * 1)).map fun k : Nat => (2, ((k % 24 : Nat) : Int), unevenDay (k % 24))) (1 / 2, 1, 0) := by
  intro q
  have e24 : ∀ g : Nat → ℝ, ((List.range (24 * 1)).map fun k => g (k % 24)).sum = (day24 g).sum := by
    intro g
    unfold day24
    congr 1
  let G : Nat → ℝ := fun h => q.1 * 2 * Real.cos (Real.pi * ((h : ℝ) - q.2.2) / 12) + q.2.1 * 2 - (2 + Real.cos (Real.pi * ((h : ℝ) - 0) / 12))
  have h0 := uneven_sum G (1 / 2) (-(1 / 2)) (2 * (q.2.1 * 2 - 2)) (by
    intro h _
    simp only [G]
    push_cast
    rw [cos_half_day, cos_half_day]
    ring)
  simp only [List.map_map, Function.comp_def, Int.cast_natCast]
  rw [e24 fun h => (1 / 2 * 2 * Real.cos (Real.pi * ((h : ℝ) - 0) / 12) + 1 * 2 - unevenDay h) ^ 2,
    e24 fun h => (q.1 * 2 * Real.cos (Real.pi * ((h : ℝ) - q.2.2) / 12) + q.2.1 * 2 - unevenDay h) ^ 2]
  have e1 : (day24 fun h : Nat => (q.1 * 2 * Real.cos (Real.pi * ((h : ℝ) - q.2.2) / 12) + q.2.1 * 2 - unevenDay h) ^ 2).sum =
      (day24 fun h => (1 / 2 * 2 * Real.cos (Real.pi * ((h : ℝ) - 0) / 12) + 1 * 2 - unevenDay h) ^ 2 + (G h ^ 2 + -2 * (G h * if h % 2 = 0 then 1 / 2 else -(1 / 2)))).sum := by
    congr 1
    apply day24_congr
    intro h _
    simp only [G, unevenDay]
    ring
  rw [e1, sum_day24_add, sum_day24_add, sum_day24_mul, h0]
  have : 0 ≤ (day24 fun h => G h ^ 2).sum := List.sum_nonneg (by
    intro x hx
    obtain ⟨h, _, rfl⟩ := mem_day24.1 hx
    positivity)
  linarith

theorem unevenDay_fitted : ∃ p, fitCosineFunction bestCosine (hourlyS 0 1 fun _ h => .fin (unevenDay h)) = .ok p := by
  unfold fitCosineFunction
  rw [fitRows_hourly 0 1 fun _ h => unevenDay h, hour_rows (M := fun _ => 2) fun _ _ => unevenDay_mean]
  show ∃ p, bestCosine _ = .ok p
  unfold bestCosine
  rw [dif_pos ⟨_, unevenDay_fit⟩]
  exact ⟨_, rfl⟩

/-- C179: this day is fitted (not exactly), and the disaggregated day has the same product sums -/
example : ∃ (p : ℝ × ℝ × ℝ) (w : Nat → Nat → ℝ), fitCosineFunction bestCosine (hourlyS 0 1 fun _ h => .fin (unevenDay h)) = .ok p ∧
    disaggregateWind .modern (fun _ => 0) (dailyS 0 1 fun _ => .fin 2) "cosine" (some p.1) (some p.2.1) (some p.2.2) = .ok (.array (Series.values (hourlyS 0 1 fun i h => .fin (w i h)))) ∧
    ∀ c : ℝ, ((List.range (24 * 1)).map fun k : Nat => 2 * Real.cos (Real.pi * (((k % 24 : Nat) : ℝ) - c) / 12) * w (k / 24) (k % 24)).sum =
      ((List.range (24 * 1)).map fun k : Nat => 2 * Real.cos (Real.pi * (((k % 24 : Nat) : ℝ) - c) / 12) * unevenDay (k % 24)).sum := by
  obtain ⟨p, hp⟩ := unevenDay_fitted
  obtain ⟨w, h, H, _⟩ := C179_course_kept (api := .modern) (draw := fun _ => 0) bestCosine_leastSquares (d0 := 0) (n := 1) (by norm_num) (f := fun _ => unevenDay) (M := fun _ => 2) (fun _ _ => unevenDay_mean)
    (a := p.1) (b := p.2.1) (tShift := p.2.2) hp
  exact ⟨p, w, hp, h, H⟩

/-- C179 (variability): the same day -/
example : ∃ (p : ℝ × ℝ × ℝ) (w : Nat → Nat → ℝ), fitCosineFunction bestCosine (hourlyS 0 1 fun _ h => .fin (unevenDay h)) = .ok p ∧
    disaggregateWind .modern (fun _ => 0) (dailyS 0 1 fun _ => .fin 2) "cosine" (some p.1) (some p.2.1) (some p.2.2) = .ok (.array (Series.values (hourlyS 0 1 fun i h => .fin (w i h)))) ∧
    ((List.range (24 * 1)).map fun k : Nat => (unevenDay (k % 24) - 2) ^ 2).sum =
      ((List.range (24 * 1)).map fun k : Nat => (w (k / 24) (k % 24) - 2) ^ 2).sum + ((List.range (24 * 1)).map fun k : Nat => (unevenDay (k % 24) - w (k / 24) (k % 24)) ^ 2).sum := by
  obtain ⟨p, hp⟩ := unevenDay_fitted
  obtain ⟨w, h, H⟩ := C179_variability (api := .modern) (draw := fun _ => 0) bestCosine_leastSquares (d0 := 0) (n := 1) (by norm_num) (f := fun _ => unevenDay) (M := fun _ => 2) (fun _ _ => unevenDay_mean)
    (a := p.1) (b := p.2.1) (tShift := p.2.2) hp
  exact ⟨p, w, hp, h, H⟩

end

end Melodist
