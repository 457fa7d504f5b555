import Verif.Lemmas.DailyB
import Verif.Props.Wind

/-!
# Lemmas: the rows of the wind fit, and least squares with a cosine
-/

set_option linter.unusedSectionVars false

namespace Melodist
open Spec

/-- a first harmonic is a cosine with an amplitude and a phase -/
theorem amp_phase (α β : ℝ) : ∃ a t : ℝ, ∀ h : ℝ,
    a * Real.cos (Real.pi * (h - t) / 12) = α * Real.cos (Real.pi * h / 12) + β * Real.sin (Real.pi * h / 12) := by
  let z : ℂ := ⟨α, β⟩
  refine ⟨‖z‖, 12 * Complex.arg z / Real.pi, ?_⟩
  intro h
  have e : Real.pi * (h - 12 * Complex.arg z / Real.pi) / 12 = Real.pi * h / 12 - Complex.arg z := by
    have := Real.pi_ne_zero
    field_simp
  rw [e, Real.cos_sub]
  have h1 : ‖z‖ * Real.cos (Complex.arg z) = α := Complex.norm_mul_cos_arg z
  have h2 : ‖z‖ * Real.sin (Complex.arg z) = β := Complex.norm_mul_sin_arg z
  rw [← h1, ← h2]
  ring

theorem phase_amp (a t h : ℝ) : a * Real.cos (Real.pi * (h - t) / 12) =
    (a * Real.cos (Real.pi * t / 12)) * Real.cos (Real.pi * h / 12) + (a * Real.sin (Real.pi * t / 12)) * Real.sin (Real.pi * h / 12) := by
  rw [show Real.pi * (h - t) / 12 = Real.pi * h / 12 - Real.pi * t / 12 by ring, Real.cos_sub]
  ring

/-- between any two parameter sets there is one with the mean of the two functions -/
theorem mid_params (p q : ℝ × ℝ × ℝ) : ∃ s : ℝ × ℝ × ℝ, ∀ m h : ℝ,
    s.1 * m * Real.cos (Real.pi * (h - s.2.2) / 12) + s.2.1 * m =
      ((p.1 * m * Real.cos (Real.pi * (h - p.2.2) / 12) + p.2.1 * m) + (q.1 * m * Real.cos (Real.pi * (h - q.2.2) / 12) + q.2.1 * m)) / 2 := by
  obtain ⟨a, t, H⟩ := amp_phase ((p.1 * Real.cos (Real.pi * p.2.2 / 12) + q.1 * Real.cos (Real.pi * q.2.2 / 12)) / 2)
    ((p.1 * Real.sin (Real.pi * p.2.2 / 12) + q.1 * Real.sin (Real.pi * q.2.2 / 12)) / 2)
  refine ⟨(a, (p.2.1 + q.2.1) / 2, t), ?_⟩
  intro m h
  have := H h
  have hp := phase_amp p.1 p.2.2 h
  have hq := phase_amp q.1 q.2.2 h
  simp only
  have e : ∀ a c : ℝ, a * m * c = m * (a * c) := fun a c => by ring
  rw [e, e, e, this, hp, hq]
  ring

/-- a list of squares that does not exceed zero consists of zeros -/
theorem sum_sq_zero_wind {α : Type} (l : List α) (g : α → ℝ) (h : (l.map fun r => g r ^ 2).sum ≤ 0) : ∀ r ∈ l, g r = 0 := by
  induction l with
  | nil => simp
  | cons x l ih =>
    have h0 : 0 ≤ (l.map fun r => g r ^ 2).sum := List.sum_nonneg (by
      intro y hy
      obtain ⟨r, _, rfl⟩ := List.mem_map.1 hy
      exact sq_nonneg _)
    simp only [List.map_cons, List.sum_cons] at h
    have h1 := sq_nonneg (g x)
    intro r hr
    rcases List.mem_cons.1 hr with rfl | hr
    · exact pow_eq_zero_iff (two_ne_zero) |>.1 (by linarith)
    · exact ih (by linarith) r hr

/-- the parallelogram identity for sums of squares -/
theorem sum_sq_mid {α : Type} (l : List α) (g k : α → ℝ) :
    (l.map fun r => ((g r + k r) / 2) ^ 2).sum =
      (l.map fun r => g r ^ 2).sum / 2 + (l.map fun r => k r ^ 2).sum / 2 - (l.map fun r => (g r - k r) ^ 2).sum / 4 := by
  induction l with
  | nil => simp
  | cons x l ih => simp only [List.map_cons, List.sum_cons, ih]; ring

/-- a first harmonic plus a constant that vanishes at three hours of the day vanishes -/
theorem harmonic_zero {α β c : ℝ} {h1 h2 h3 : Int} (r1 : 0 ≤ h1 ∧ h1 < 24) (r2 : 0 ≤ h2 ∧ h2 < 24) (r3 : 0 ≤ h3 ∧ h3 < 24)
    (n12 : h1 ≠ h2) (n13 : h1 ≠ h3) (n23 : h2 ≠ h3)
    (z : ∀ h : Int, h = h1 ∨ h = h2 ∨ h = h3 → α * Real.cos (Real.pi * h / 12) + β * Real.sin (Real.pi * h / 12) + c = 0) :
    α = 0 ∧ β = 0 ∧ c = 0 := by
  -- half the angle between two hours is no multiple of π
  have half : ∀ {x y : Int}, 0 ≤ x ∧ x < 24 → 0 ≤ y ∧ y < 24 → x ≠ y → Real.sin (Real.pi * ((x : ℝ) - y) / 24) ≠ 0 := by
    intro x y hx hy hne e
    obtain ⟨k, hk⟩ := Real.sin_eq_zero_iff.1 e
    have hpi := Real.pi_pos
    have : (k : ℝ) * 24 = (x : ℝ) - y := by
      have : Real.pi * ((k : ℝ) * 24) = Real.pi * ((x : ℝ) - y) := by linarith
      exact mul_left_cancel₀ hpi.ne' this
    have : k * 24 = x - y := by exact_mod_cast this
    omega
  have diff : ∀ {x y : Int}, 0 ≤ x ∧ x < 24 → 0 ≤ y ∧ y < 24 → x ≠ y →
      α * Real.cos (Real.pi * x / 12) + β * Real.sin (Real.pi * x / 12) + c = 0 →
      α * Real.cos (Real.pi * y / 12) + β * Real.sin (Real.pi * y / 12) + c = 0 →
      α * Real.sin (Real.pi * ((x : ℝ) + y) / 24) = β * Real.cos (Real.pi * ((x : ℝ) + y) / 24) := by
    intro x y hx hy hne ex ey
    have hs := half hx hy hne
    have hc : Real.cos (Real.pi * x / 12) - Real.cos (Real.pi * y / 12) =
        -2 * Real.sin (Real.pi * ((x : ℝ) + y) / 24) * Real.sin (Real.pi * ((x : ℝ) - y) / 24) := by
      rw [Real.cos_sub_cos]; ring_nf
    have hsn : Real.sin (Real.pi * x / 12) - Real.sin (Real.pi * y / 12) =
        2 * Real.sin (Real.pi * ((x : ℝ) - y) / 24) * Real.cos (Real.pi * ((x : ℝ) + y) / 24) := by
      rw [Real.sin_sub_sin]; ring_nf
    have : α * (Real.cos (Real.pi * x / 12) - Real.cos (Real.pi * y / 12)) +
        β * (Real.sin (Real.pi * x / 12) - Real.sin (Real.pi * y / 12)) = 0 := by linarith
    rw [hc, hsn] at this
    have : Real.sin (Real.pi * ((x : ℝ) - y) / 24) *
        (α * Real.sin (Real.pi * ((x : ℝ) + y) / 24) - β * Real.cos (Real.pi * ((x : ℝ) + y) / 24)) = 0 := by linarith
    rcases mul_eq_zero.1 this with h | h
    · exact absurd h hs
    · linarith
  have e12 := diff r1 r2 n12 (z _ (.inl rfl)) (z _ (.inr (.inl rfl)))
  have e13 := diff r1 r3 n13 (z _ (.inl rfl)) (z _ (.inr (.inr rfl)))
  have hdet : Real.sin (Real.pi * ((h1 : ℝ) + h2) / 24) * Real.cos (Real.pi * ((h1 : ℝ) + h3) / 24) -
      Real.cos (Real.pi * ((h1 : ℝ) + h2) / 24) * Real.sin (Real.pi * ((h1 : ℝ) + h3) / 24) ≠ 0 := by
    rw [← Real.sin_sub, show Real.pi * ((h1 : ℝ) + h2) / 24 - Real.pi * ((h1 : ℝ) + h3) / 24 = Real.pi * ((h2 : ℝ) - h3) / 24 by ring]
    exact half r2 r3 n23
  generalize Real.sin (Real.pi * ((h1 : ℝ) + h2) / 24) = s at *
  generalize Real.cos (Real.pi * ((h1 : ℝ) + h2) / 24) = k at *
  generalize Real.sin (Real.pi * ((h1 : ℝ) + h3) / 24) = s' at *
  generalize Real.cos (Real.pi * ((h1 : ℝ) + h3) / 24) = k' at *
  have hα : α = 0 := by
    have : α * (s * k' - k * s') = 0 := by linear_combination k' * e12 - k * e13
    rcases mul_eq_zero.1 this with h | h
    · exact h
    · exact absurd h hdet
  have hβ : β = 0 := by
    have : β * (s * k' - k * s') = 0 := by linear_combination s' * e12 - s * e13
    rcases mul_eq_zero.1 this with h | h
    · exact h
    · exact absurd h hdet
  refine ⟨hα, hβ, ?_⟩
  have := z h1 (.inl rfl)
  rw [hα, hβ] at this
  linarith

end Melodist
