import Verif.Lemmas.RoundBits
import Verif.Lemmas.Rounding

/-!
# Helper lemmas: the error of a computation in rounded arithmetic
-/

set_option linter.unusedSectionVars false

namespace Melodist
open Spec

section
variable {K : Type} [Field K] [LinearOrder K] [IsStrictOrderedRing K]

/-- `y` is computed for `x`, of size at most `B`, with the error of `k` roundings relative to `B` -/
def Acc (R : Rounding K) (k : Nat) (y x B : K) : Prop := |y - x| ≤ ((1 + R.u) ^ k - 1) * B ∧ |x| ≤ B

theorem Acc.self (R : Rounding K) (x : K) : Acc R 0 x x |x| := by
  refine ⟨?_, le_refl _⟩
  simp

theorem Acc.exact (R : Rounding K) {x B : K} (h : |x| ≤ B) : Acc R 0 x x B := by
  refine ⟨?_, h⟩
  simp

theorem Acc.bound_nonneg {R : Rounding K} {k : Nat} {y x B : K} (h : Acc R k y x B) : 0 ≤ B := (abs_nonneg x).trans h.2

theorem one_le_hi_pow (R : Rounding K) (k : Nat) : 1 ≤ (1 + R.u) ^ k := one_le_pow₀ R.one_le

theorem Acc.abs_le {R : Rounding K} {k : Nat} {y x B : K} (h : Acc R k y x B) : |y| ≤ (1 + R.u) ^ k * B := by
  have : |y| ≤ |y - x| + |x| := by
    have := abs_add_le (y - x) x
    simpa using this
  linarith [h.1, h.2]

theorem Acc.mono {R : Rounding K} {k l : Nat} {y x B C : K} (h : Acc R k y x B) (hkl : k ≤ l) (hBC : B ≤ C) : Acc R l y x C := by
  have h0 := h.bound_nonneg
  refine ⟨h.1.trans ?_, h.2.trans hBC⟩
  have a : (1 + R.u) ^ k ≤ (1 + R.u) ^ l := pow_le_pow_right₀ R.one_le hkl
  have b := one_le_hi_pow R k
  exact mul_le_mul (by linarith) hBC h0 (by linarith)

theorem Acc.round {R : Rounding K} {k : Nat} {y x B : K} (h : Acc R k y x B) : Acc R (k + 1) (R.fl y) x B := by
  refine ⟨?_, h.2⟩
  have a := R.err y
  have b := mul_le_mul_of_nonneg_left h.abs_le R.u_nonneg
  have c : |R.fl y - x| ≤ |R.fl y - y| + |y - x| := by
    have := abs_add_le (R.fl y - y) (y - x)
    simpa using this
  rw [pow_succ]
  have := h.1
  nlinarith

theorem Acc.add {R : Rounding K} {k : Nat} {y x B y' x' B' : K} (h : Acc R k y x B) (h' : Acc R k y' x' B') : Acc R k (y + y') (x + x') (B + B') := by
  refine ⟨?_, (abs_add_le _ _).trans (add_le_add h.2 h'.2)⟩
  have e : y + y' - (x + x') = (y - x) + (y' - x') := by ring
  rw [e, mul_add]
  exact (abs_add_le _ _).trans (add_le_add h.1 h'.1)

theorem Acc.neg {R : Rounding K} {k : Nat} {y x B : K} (h : Acc R k y x B) : Acc R k (-y) (-x) B := by
  refine ⟨?_, by rw [abs_neg]; exact h.2⟩
  rw [show -y - -x = -(y - x) by ring, abs_neg]
  exact h.1

theorem Acc.sub {R : Rounding K} {k : Nat} {y x B y' x' B' : K} (h : Acc R k y x B) (h' : Acc R k y' x' B') : Acc R k (y - y') (x - x') (B + B') := by
  rw [sub_eq_add_neg, sub_eq_add_neg]
  exact h.add h'.neg

theorem Acc.mul {R : Rounding K} {j k : Nat} {y x B y' x' B' : K} (h : Acc R j y x B) (h' : Acc R k y' x' B') : Acc R (j + k) (y * y') (x * x') (B * B') := by
  have hB := h.bound_nonneg
  have hB' := h'.bound_nonneg
  refine ⟨?_, by rw [abs_mul]; exact mul_le_mul h.2 h'.2 (abs_nonneg _) hB⟩
  have e : y * y' - x * x' = y * (y' - x') + (y - x) * x' := by ring
  rw [e]
  have a : |y * (y' - x')| ≤ ((1 + R.u) ^ j * B) * (((1 + R.u) ^ k - 1) * B') := by
    rw [abs_mul]
    exact mul_le_mul h.abs_le h'.1 (abs_nonneg _) (mul_nonneg (zero_le_one.trans (one_le_hi_pow R j)) hB)
  have b : |(y - x) * x'| ≤ (((1 + R.u) ^ j - 1) * B) * B' := by
    rw [abs_mul]
    exact mul_le_mul h.1 h'.2 (abs_nonneg _) (mul_nonneg (by linarith [one_le_hi_pow R j]) hB)
  refine (abs_add_le _ _).trans ((add_le_add a b).trans (le_of_eq ?_))
  rw [pow_add]
  ring

theorem Acc.half {R : Rounding K} {k : Nat} {y x B : K} (h : Acc R k y x B) : Acc R k (y / 2) (x / 2) (B / 2) := by
  have := h.mul (Acc.exact R (x := (1 / 2 : K)) (B := 1 / 2) (by rw [abs_of_pos] <;> norm_num))
  simpa [div_eq_mul_inv] using this

/-- the sum of 24 values -/
theorem Acc.sum24 {R : Rounding K} {k : Nat} {y x B : Nat → K} (h : ∀ j < 24, Acc R k (y j) (x j) (B j)) :
    Acc R k (day24 y).sum (day24 x).sum (day24 B).sum := by
  unfold day24
  have : ∀ m ≤ 24, Acc R k ((List.range m).map y).sum ((List.range m).map x).sum ((List.range m).map B).sum := by
    intro m
    induction m with
    | zero => intro _; simp [Acc]
    | succ m ih =>
      intro hm
      rw [List.range_succ (n := m)]
      simp only [List.map_append, List.map_cons, List.map_nil, List.sum_append, List.sum_cons, List.sum_nil, add_zero]
      exact (ih (by omega)).add (h m (by omega))
  exact this 24 (le_refl _)

end

section
variable {K : Type} [Field K] [LinearOrder K] [IsStrictOrderedRing K] [FloorRing K]

theorem nearestEven_neg (x : K) : nearestEven (-x) = -nearestEven x := by
  have h0 := Int.floor_le x
  have h1 := Int.lt_floor_add_one x
  by_cases hx : x = ⌊x⌋
  · rw [hx]
    have := nearestEven_int (K := K) (-⌊x⌋)
    push_cast at this
    rw [this, nearestEven_int]
  · have hlt : (⌊x⌋ : K) < x := lt_of_le_of_ne h0 (Ne.symm hx)
    have hf : ⌊-x⌋ = -⌊x⌋ - 1 := by
      rw [Int.floor_eq_iff]
      push_cast
      constructor <;> linarith
    unfold nearestEven
    rw [hf]
    push_cast
    by_cases c1 : x - ⌊x⌋ < 1 / 2
    · rw [if_pos c1, if_neg (by linarith), if_pos (by linarith)]
      ring
    · by_cases c2 : 1 / 2 < x - ⌊x⌋
      · rw [if_neg c1, if_pos c2, if_pos (by linarith)]
        ring
      · rw [if_neg c1, if_neg c2, if_neg (by linarith), if_neg (by linarith)]
        split_ifs <;> omega

/-- rounding to nearest is symmetric -/
theorem roundBits_neg (p : Nat) (x : K) : roundBits p (-x) = -roundBits p x := by
  unfold roundBits
  by_cases h : x = 0
  · simp [h]
  · rw [if_neg (neg_ne_zero.2 h), if_neg h, abs_neg, neg_div, nearestEven_neg]
    push_cast
    ring

theorem roundBits_one {p : Nat} (hp : 1 ≤ p) : roundBits p (1 : K) = 1 := by
  apply roundBits_grid (p := p) (k := 1) (j := 0) (by simp)
  rw [abs_one, Int.log_one_right]
  omega

end

end Melodist
