import Mathlib.Analysis.SpecialFunctions.Trigonometric.Bounds
import Mathlib.Analysis.Real.Pi.Bounds

/-!
# Lemmas for C119: differences of cosine waves
-/

set_option linter.unusedSectionVars false

namespace Melodist

/-- the same wave at two phases -/
theorem wave_diff (M m x y : ℝ) : |((M + m) / 2 + (M - m) / 2 * Real.cos y) - ((M + m) / 2 + (M - m) / 2 * Real.cos x)| ≤ |M - m| / 2 * |y - x| := by
  rw [show ((M + m) / 2 + (M - m) / 2 * Real.cos y) - ((M + m) / 2 + (M - m) / 2 * Real.cos x) = (M - m) / 2 * (Real.cos y - Real.cos x) by ring, abs_mul, abs_div,
    abs_two]
  exact mul_le_mul_of_nonneg_left (Real.abs_cos_sub_cos_le y x) (by positivity)

/-- at the top of the wave the minimum does not matter -/
theorem wave_top {M m m' x y : ℝ} (hy : Real.cos y = 1) :
    |((M + m') / 2 + (M - m') / 2 * Real.cos y) - ((M + m) / 2 + (M - m) / 2 * Real.cos x)| ≤ |M - m| / 2 * |y - x| := by
  have := wave_diff M m x y
  rw [hy] at this ⊢
  rwa [show (M + m') / 2 + (M - m') / 2 * 1 = (M + m) / 2 + (M - m) / 2 * 1 by ring]

/-- at the bottom of the wave the maximum does not matter -/
theorem wave_bottom {M M' m x y : ℝ} (hy : Real.cos y = -1) :
    |((M' + m) / 2 + (M' - m) / 2 * Real.cos y) - ((M + m) / 2 + (M - m) / 2 * Real.cos x)| ≤ |M - m| / 2 * |y - x| := by
  have := wave_diff M m x y
  rw [hy] at this ⊢
  rwa [show (M' + m) / 2 + (M' - m) / 2 * -1 = (M + m) / 2 + (M - m) / 2 * -1 by ring]

/-- another maximum: the share `(1 + cos y) / 2` of the difference -/
theorem wave_max {M M' m x y : ℝ} :
    |((M' + m) / 2 + (M' - m) / 2 * Real.cos y) - ((M + m) / 2 + (M - m) / 2 * Real.cos x)| ≤ |M - m| / 2 * |y - x| + (1 + Real.cos y) / 2 * |M' - M| := by
  rw [show ((M' + m) / 2 + (M' - m) / 2 * Real.cos y) - ((M + m) / 2 + (M - m) / 2 * Real.cos x) =
    (((M + m) / 2 + (M - m) / 2 * Real.cos y) - ((M + m) / 2 + (M - m) / 2 * Real.cos x)) + (1 + Real.cos y) / 2 * (M' - M) by ring]
  refine (abs_add_le _ _).trans (add_le_add (wave_diff M m x y) ?_)
  rw [abs_mul, abs_of_nonneg (by linarith [Real.neg_one_le_cos y])]

end Melodist
