import Verif.Lemmas.Gradual

/-!
# C129: `roundGradual` is rounding to the nearest floating-point number
-/

set_option linter.unusedSectionVars false

namespace Melodist
open Spec

variable {K : Type} [Field K] [LinearOrder K] [IsStrictOrderedRing K]

variable [FloorRing K]

theorem nearestEven_nearest (z : K) (k : Int) : |(nearestEven z : K) - z| ≤ |(k : K) - z| := by
  by_contra h
  push Not at h
  have h1 := nearestEven_err z
  have h2 : |((k - nearestEven z : Int) : K)| < 1 := by
    push_cast
    have := abs_sub_abs_le_abs_sub ((k : K) - z) ((nearestEven z : K) - z)
    have h3 := abs_sub ((k : K) - z) ((nearestEven z : K) - z)
    rw [sub_sub_sub_cancel_right] at h3
    linarith
  rw [← Int.cast_abs] at h2
  have h3 : |k - nearestEven z| < 1 := by exact_mod_cast h2
  have h4 := Int.abs_lt_one_iff.1 h3
  have h5 : k = nearestEven z := by omega
  rw [h5] at h
  exact lt_irrefl _ h

theorem gradual_zero (p : Nat) (e : Int) : roundGradual p e (0 : K) = 0 := by
  unfold roundGradual
  rw [zero_div]
  have : nearestEven (0 : K) = 0 := by simpa using nearestEven_int (K := K) 0
  rw [this]; simp

/-- the rounded number is a floating-point number -/
theorem gradual_binary {p : Nat} {e : Int} (hp : 1 ≤ p) (x : K) : Binary p e (roundGradual p e x) := by
  have h2 : (2 : K) ≠ 0 := by norm_num
  by_cases hx : x = 0
  · rw [hx, gradual_zero]
    exact ⟨0, e, by simp, le_refl e, by simp⟩
  have hr := (log_range hx).2
  unfold roundGradual
  set E := max (Int.log 2 |x| + 1 - (p : Int)) e with hE
  have hE1 : Int.log 2 |x| + 1 ≤ p + E := by omega
  have hE2 : e ≤ E := le_max_right _ _
  have pE : (0 : K) < 2 ^ E := zpow_pos (by norm_num) _
  have hz : |x / 2 ^ E| ≤ 2 ^ p := by
    rw [abs_div, abs_of_pos pE, div_le_iff₀ pE]
    refine hr.le.trans ?_
    rw [← zpow_natCast, ← zpow_add₀ h2]
    exact zpow_le_zpow_right₀ (by norm_num) hE1
  rw [abs_le] at hz
  have u1 : nearestEven (x / 2 ^ E) ≤ 2 ^ p := nearestEven_le_of (by push_cast; exact hz.2)
  have u2 : -2 ^ p ≤ nearestEven (x / 2 ^ E) := le_nearestEven_of (by push_cast; exact hz.1)
  have hp2 : (2 : Int) ^ p = 2 ^ (p - 1) * 2 := by rw [← pow_succ]; congr 1; omega
  have hp3 : (0 : Int) < 2 ^ (p - 1) := by positivity
  have eE : (2 : K) ^ (E + 1) = 2 ^ E * 2 := by rw [zpow_add₀ h2, zpow_one]
  have c2 : ((2 : K) ^ p) = 2 ^ (p - 1) * 2 := by rw [← pow_succ]; congr 1; omega
  generalize nearestEven (x / 2 ^ E) = k at u1 u2 ⊢
  rcases eq_or_ne k (2 ^ p) with h | h
  · refine ⟨2 ^ (p - 1), E + 1, by rw [abs_of_pos hp3, hp2]; omega, by omega, ?_⟩
    rw [h, eE]; push_cast; rw [c2]; ring
  · rcases eq_or_ne k (-2 ^ p) with h' | h'
    · refine ⟨-2 ^ (p - 1), E + 1, by rw [abs_neg, abs_of_pos hp3, hp2]; omega, by omega, ?_⟩
      rw [h', eE]; push_cast; rw [c2]; ring
    · exact ⟨k, E, by rw [abs_lt]; omega, hE2, rfl⟩

/-- no floating-point number is nearer -/
theorem gradual_nearest {p : Nat} {e : Int} (hp : 1 ≤ p) (x : K) {y : K} (hy : Binary p e y) : |roundGradual p e x - x| ≤ |y - x| := by
  have h2 : (2 : K) ≠ 0 := by norm_num
  by_cases hx : x = 0
  · rw [hx, gradual_zero]; simp
  have hr := (log_range hx).1
  unfold roundGradual
  set E := max (Int.log 2 |x| + 1 - (p : Int)) e with hE
  have pE : (0 : K) < 2 ^ E := zpow_pos (by norm_num) _
  have mul : ∀ k : Int, |(nearestEven (x / 2 ^ E) : K) * 2 ^ E - x| ≤ |(k : K) * 2 ^ E - x| := by
    intro k
    have h := mul_le_mul_of_nonneg_right (nearestEven_nearest (x / 2 ^ E) k) pE.le
    have f : ∀ q : K, |q - x / 2 ^ E| * 2 ^ E = |q * 2 ^ E - x| := by
      intro q
      conv_lhs => rw [← abs_of_pos pE]
      rw [abs_of_pos pE, ← abs_of_pos pE, ← abs_mul, abs_of_pos pE, sub_mul, div_mul_cancel₀ _ pE.ne']
    rw [f, f] at h
    exact h
  obtain ⟨k, j, hk, hj, rfl⟩ := hy
  by_cases hjE : E ≤ j
  · obtain ⟨d, hd⟩ : ∃ d : Nat, j = E + d := ⟨(j - E).toNat, by omega⟩
    have := mul (k * 2 ^ d)
    push_cast at this
    rw [hd, zpow_add₀ h2, zpow_natCast]
    convert this using 3
    ring
  · have hE1 : E = Int.log 2 |x| + 1 - p := by omega
    have ak : |(k : K)| < 2 ^ p := by rw [← Int.cast_abs]; exact_mod_cast hk
    have hyL : |(k : K) * 2 ^ j| ≤ 2 ^ Int.log 2 |x| := by
      have pj : (0 : K) < 2 ^ j := zpow_pos (by norm_num) j
      rw [abs_mul, abs_of_pos pj]
      calc |(k : K)| * 2 ^ j ≤ 2 ^ p * 2 ^ j := mul_le_mul_of_nonneg_right ak.le (zpow_pos (by norm_num) j).le
        _ = 2 ^ ((p : Int) + j) := by rw [zpow_add₀ h2, zpow_natCast]
        _ ≤ 2 ^ Int.log 2 |x| := zpow_le_zpow_right₀ (by norm_num) (by omega)
    have eL : (2 : K) ^ Int.log 2 |x| = 2 ^ (p - 1) * 2 ^ E := by
      rw [← zpow_natCast, ← zpow_add₀ h2]
      congr 1
      rw [hE1]
      omega
    have tri := abs_sub_abs_le_abs_sub x ((k : K) * 2 ^ j)
    rw [abs_sub_comm x] at tri
    generalize (2 : K) ^ Int.log 2 |x| = L at *
    rcases lt_or_gt_of_ne hx with hneg | hpos
    · have := mul (-2 ^ (p - 1))
      push_cast at this
      rw [neg_mul, ← eL] at this
      rw [abs_of_neg hneg] at hr tri
      refine this.trans ?_
      rw [abs_of_nonneg (by linarith)]
      linarith
    · have := mul (2 ^ (p - 1))
      push_cast at this
      rw [← eL] at this
      rw [abs_of_pos hpos] at hr tri
      refine this.trans ?_
      rw [abs_of_nonpos (by linarith)]
      linarith

end Melodist
