import Verif.Model.PotRadRound
import Verif.Props.RoundingD

/-!
# Helper lemmas: absolute errors in binary64 with explicit constants
-/

set_option linter.unusedSectionVars false

namespace Melodist
open Spec

noncomputable section

/-- `y` is computed for `x` with an error of at most `e`; `x` has size at most `B` -/
def Nr (e B y x : ℝ) : Prop := |y - x| ≤ e ∧ |x| ≤ B

namespace Nr

variable {e B y x e' B' y' x' e'' B'' : ℝ}

theorem nonneg (h : Nr e B y x) : 0 ≤ e := (abs_nonneg _).trans h.1
theorem size_nonneg (h : Nr e B y x) : 0 ≤ B := (abs_nonneg _).trans h.2

theorem const (h : |x| ≤ B) : Nr 0 B x x := ⟨by simp, h⟩

theorem num (h0 : 0 ≤ x) : Nr 0 x x x := const (by rw [abs_of_nonneg h0])

theorem weaken (h : Nr e B y x) (he : e ≤ e') (hB : B ≤ B') : Nr e' B' y x := ⟨h.1.trans he, h.2.trans hB⟩

theorem size (h : Nr e B y x) (hB : |x| ≤ B') : Nr e B' y x := ⟨h.1, hB⟩

theorem abs_le (h : Nr e B y x) : |y| ≤ B + e := by
  have := abs_add_le (y - x) x
  rw [sub_add_cancel] at this
  linarith [h.1, h.2]

theorem fl (h : Nr e B y x) (he : e + 1.2e-16 * (B + e) ≤ e') : Nr e' B (roundBits 53 y) x := by
  refine ⟨?_, h.2⟩
  have h1 := R53.err y
  rw [R53_fl, R53_u] at h1
  have h2 := h.abs_le
  have h3 : (1 / 9007199254740992 : ℝ) * |y| ≤ 1.2e-16 * (B + e) :=
    mul_le_mul (by norm_num) h2 (abs_nonneg _) (by norm_num)
  have := abs_add_le (roundBits 53 y - y) (y - x)
  rw [sub_add_sub_cancel] at this
  linarith [h.1]

theorem add (h : Nr e B y x) (h' : Nr e' B' y' x') : Nr (e + e') (B + B') (y + y') (x + x') := by
  refine ⟨?_, (abs_add_le _ _).trans (add_le_add h.2 h'.2)⟩
  rw [add_sub_add_comm]
  exact (abs_add_le _ _).trans (add_le_add h.1 h'.1)

theorem sub (h : Nr e B y x) (h' : Nr e' B' y' x') : Nr (e + e') (B + B') (y - y') (x - x') := by
  refine ⟨?_, (abs_sub _ _).trans (add_le_add h.2 h'.2)⟩
  rw [sub_sub_sub_comm]
  exact (abs_sub _ _).trans (add_le_add h.1 h'.1)

theorem mul (h : Nr e B y x) (h' : Nr e' B' y' x') : Nr (e * B' + e' * B + e * e') (B * B') (y * y') (x * x') := by
  refine ⟨?_, by rw [abs_mul]; exact mul_le_mul h.2 h'.2 (abs_nonneg _) h.size_nonneg⟩
  have e1 : y * y' - x * x' = (y - x) * x' + (y' - x') * x + (y - x) * (y' - x') := by ring
  rw [e1]
  have a1 : |(y - x) * x'| ≤ e * B' := by rw [abs_mul]; exact mul_le_mul h.1 h'.2 (abs_nonneg _) h.nonneg
  have a2 : |(y' - x') * x| ≤ e' * B := by rw [abs_mul]; exact mul_le_mul h'.1 h.2 (abs_nonneg _) h'.nonneg
  have a3 : |(y - x) * (y' - x')| ≤ e * e' := by rw [abs_mul]; exact mul_le_mul h.1 h'.1 (abs_nonneg _) h.nonneg
  exact (abs_add_three _ _ _).trans (by linarith)

theorem divc (h : Nr e B y x) {c : ℝ} (hc : 0 < c) : Nr (e / c) (B / c) (y / c) (x / c) := by
  refine ⟨?_, ?_⟩
  · rw [← sub_div, abs_div, abs_of_pos hc]
    exact div_le_div_of_nonneg_right h.1 hc.le
  · rw [abs_div, abs_of_pos hc]
    exact div_le_div_of_nonneg_right h.2 hc.le

theorem max0 (h : Nr e B y x) : Nr e B (max y 0) (max x 0) := by
  refine ⟨?_, ?_⟩
  · have := abs_max_sub_max_le_abs y x 0
    exact this.trans h.1
  · rw [abs_of_nonneg (le_max_right _ _)]
    exact max_le ((le_abs_self x).trans h.2) h.size_nonneg

theorem sqr (h : Nr e B y x) : Nr (e * (2 * B + e)) (B * B) (y ^ 2) (x ^ 2) := by
  have := h.mul h
  rw [pow_two, pow_two]
  exact ⟨this.1.trans (by linarith), this.2⟩

end Nr

end

namespace Spec

/-- IEEE double precision with the nearest number to π, and a library of trigonometric functions with an error of at most 1e-15 that is exact at 0, whose arccosine is not
negative and whose sine is not negative between 0 and 3 -/
structure DoubleTrig (F : TrigMath) : Prop where
  fl : F.fl = roundBits 53
  pi : F.pi = roundBits 53 Real.pi
  sin_err : ∀ x, |F.sin x - Real.sin x| ≤ 1e-15
  cos_err : ∀ x, |F.cos x - Real.cos x| ≤ 1e-15
  arcsin_err : ∀ x, -1 ≤ x → x ≤ 1 → |F.arcsin x - Real.arcsin x| ≤ 1e-15
  arccos_err : ∀ x, -1 ≤ x → x ≤ 1 → |F.arccos x - Real.arccos x| ≤ 1e-15
  sin_zero : F.sin 0 = 0
  cos_zero : F.cos 0 = 1
  arccos_nonneg : ∀ x, -1 ≤ x → x ≤ 1 → 0 ≤ F.arccos x
  sin_nonneg : ∀ x, 0 ≤ x → x ≤ 3 → 0 ≤ F.sin x

end Spec

namespace Nr

variable {e B y x : ℝ} {F : TrigMath}

theorem cos (hF : DoubleTrig F) (h : Nr e B y x) : Nr (e + 1e-15) 1 (F.cos y) (Real.cos x) := by
  refine ⟨?_, Real.abs_cos_le_one x⟩
  have h1 := hF.cos_err y
  have h3 : |Real.cos y - Real.cos x| ≤ |y - x| := Real.abs_cos_sub_cos_le y x
  have := abs_add_le (F.cos y - Real.cos y) (Real.cos y - Real.cos x)
  rw [sub_add_sub_cancel] at this
  linarith [h.1]

theorem sin (hF : DoubleTrig F) (h : Nr e B y x) : Nr (e + 1e-15) 1 (F.sin y) (Real.sin x) := by
  refine ⟨?_, Real.abs_sin_le_one x⟩
  have h1 := hF.sin_err y
  have h3 : |Real.sin y - Real.sin x| ≤ |y - x| := Real.abs_sin_sub_sin_le y x
  have := abs_add_le (F.sin y - Real.sin y) (Real.sin y - Real.sin x)
  rw [sub_add_sub_cancel] at this
  linarith [h.1]

theorem pi : Nr 4e-16 3.15 (roundBits 53 Real.pi) Real.pi := by
  have h1 := Real.pi_lt_d2
  have h0 := Real.pi_pos
  exact (Nr.const (x := Real.pi) (B := 3.15) (by rw [abs_of_pos h0]; exact h1.le)).fl (by norm_num)

end Nr

end Melodist
