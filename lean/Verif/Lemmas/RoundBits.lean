import Verif.Spec.Rounding
import Mathlib.Tactic.Linarith
import Mathlib.Tactic.Positivity
import Mathlib.Tactic.Ring
import Mathlib.Tactic.NormNum
import Mathlib.Tactic.FieldSimp

/-!
# Helper lemmas: rounding to `p` binary digits is a `Rounding`
-/

set_option linter.unusedSectionVars false

namespace Melodist
open Spec

variable {K : Type} [Field K] [LinearOrder K] [IsStrictOrderedRing K] [FloorRing K]

theorem nearestEven_range (x : K) : ⌊x⌋ ≤ nearestEven x ∧ nearestEven x ≤ ⌊x⌋ + 1 := by
  unfold nearestEven
  split_ifs <;> omega

theorem nearestEven_int (n : Int) : nearestEven (n : K) = n := by
  unfold nearestEven
  rw [Int.floor_intCast, sub_self, if_pos (by norm_num)]

theorem nearestEven_err (x : K) : |(nearestEven x : K) - x| ≤ 1 / 2 := by
  have h0 := Int.floor_le x
  have h1 := Int.lt_floor_add_one x
  unfold nearestEven
  rw [abs_le]
  split_ifs with a b c
  · constructor <;> linarith
  · push_cast; constructor <;> linarith
  · constructor <;> linarith
  · push_cast; constructor <;> linarith

theorem nearestEven_mono {x y : K} (h : x ≤ y) : nearestEven x ≤ nearestEven y := by
  rcases (Int.floor_le_floor h).lt_or_eq with hf | hf
  · have h1 := (nearestEven_range x).2
    have h2 := (nearestEven_range y).1
    omega
  · unfold nearestEven
    rw [← hf]
    split_ifs <;> first | omega | (exfalso; linarith)

theorem nearestEven_le_of {x : K} {n : Int} (h : x ≤ n) : nearestEven x ≤ n := by
  rw [← nearestEven_int (K := K) n]; exact nearestEven_mono h

theorem le_nearestEven_of {x : K} {n : Int} (h : (n : K) ≤ x) : n ≤ nearestEven x := by
  rw [← nearestEven_int (K := K) n]; exact nearestEven_mono h

section bits
variable {p : Nat} (hp : 1 ≤ p)

theorem log_range {x : K} (hx : x ≠ 0) : (2 : K) ^ Int.log 2 |x| ≤ |x| ∧ |x| < 2 ^ (Int.log 2 |x| + 1) := by
  have a := Int.zpow_log_le_self (b := 2) (r := |x|) (by omega) (abs_pos.2 hx)
  have b := Int.lt_zpow_succ_log_self (b := 2) (by omega) |x|
  exact ⟨by exact_mod_cast a, by exact_mod_cast b⟩

/-- a number of the grid is not changed -/
theorem roundBits_grid {y : K} {k j : Int} (hy : y = k * 2 ^ j) (hj : Int.log 2 |y| + 1 - (p : Int) ≤ j) : roundBits p y = y := by
  unfold roundBits
  split_ifs with h0
  · exact h0.symm
  · set e := Int.log 2 |y| + 1 - (p : Int) with he
    have h2 : (2 : K) ≠ 0 := by norm_num
    obtain ⟨m, hm⟩ : ∃ m : Nat, j = e + m := ⟨(j - e).toNat, by omega⟩
    have e1 : y / 2 ^ e = ((k * 2 ^ m : Int) : K) := by
      rw [hy, hm, zpow_add₀ h2, zpow_natCast]
      push_cast
      field_simp
    rw [e1, nearestEven_int, ← e1]
    exact div_mul_cancel₀ y (zpow_ne_zero e h2)

include hp in
/-- rounding stays between the powers of two around a number -/
theorem roundBits_range {x : K} (hx : x ≠ 0) :
    (0 < x → 2 ^ Int.log 2 |x| ≤ roundBits p x ∧ roundBits p x ≤ 2 ^ (Int.log 2 |x| + 1)) ∧
    (x < 0 → -2 ^ (Int.log 2 |x| + 1) ≤ roundBits p x ∧ roundBits p x ≤ -2 ^ Int.log 2 |x|) := by
  have h2 : (2 : K) ≠ 0 := by norm_num
  obtain ⟨a, b⟩ := log_range hx
  unfold roundBits
  rw [if_neg hx]
  set L := Int.log 2 |x|
  have pe : (0 : K) < 2 ^ (L + 1 - (p : Int)) := zpow_pos (by norm_num) _
  have m1 : (2 : K) ^ L = ((2 ^ (p - 1) : Int) : K) * 2 ^ (L + 1 - (p : Int)) := by
    push_cast
    rw [← zpow_natCast (2 : K) (p - 1), ← zpow_add₀ h2]
    congr 1
    omega
  have m2 : (2 : K) ^ (L + 1) = ((2 ^ p : Int) : K) * 2 ^ (L + 1 - (p : Int)) := by
    push_cast
    rw [← zpow_natCast (2 : K) p, ← zpow_add₀ h2]
    congr 1
    ring
  constructor
  · intro hpos
    rw [abs_of_pos hpos] at a b
    rw [m1] at a ⊢
    rw [m2] at b ⊢
    constructor
    · refine mul_le_mul_of_nonneg_right ?_ pe.le
      exact_mod_cast le_nearestEven_of ((le_div_iff₀ pe).2 a)
    · refine mul_le_mul_of_nonneg_right ?_ pe.le
      exact_mod_cast nearestEven_le_of ((div_le_iff₀ pe).2 b.le)
  · intro hneg
    rw [abs_of_neg hneg] at a b
    rw [m1] at a ⊢
    rw [m2] at b ⊢
    rw [← neg_mul, ← neg_mul]
    constructor
    · refine mul_le_mul_of_nonneg_right ?_ pe.le
      have : ((-(2 ^ p) : Int) : K) ≤ x / 2 ^ (L + 1 - (p : Int)) := by
        rw [le_div_iff₀ pe]; push_cast at b ⊢; linarith
      exact_mod_cast le_nearestEven_of this
    · refine mul_le_mul_of_nonneg_right ?_ pe.le
      have : x / 2 ^ (L + 1 - (p : Int)) ≤ ((-(2 ^ (p - 1)) : Int) : K) := by
        rw [div_le_iff₀ pe]; push_cast at a ⊢; linarith
      exact_mod_cast nearestEven_le_of this

theorem roundBits_err (x : K) : |roundBits p x - x| ≤ (2 : K) ^ (-(p : Int)) * |x| := by
  have h2 : (2 : K) ≠ 0 := by norm_num
  by_cases hx : x = 0
  · subst hx; simp [roundBits]
  obtain ⟨a, _⟩ := log_range hx
  unfold roundBits
  rw [if_neg hx]
  set L := Int.log 2 |x|
  have pe : (0 : K) < 2 ^ (L + 1 - (p : Int)) := zpow_pos (by norm_num) _
  have e := nearestEven_err (x / 2 ^ (L + 1 - (p : Int)))
  have e1 : (nearestEven (x / 2 ^ (L + 1 - (p : Int))) : K) * 2 ^ (L + 1 - (p : Int)) - x =
      ((nearestEven (x / 2 ^ (L + 1 - (p : Int))) : K) - x / 2 ^ (L + 1 - (p : Int))) * 2 ^ (L + 1 - (p : Int)) := by
    rw [sub_mul, div_mul_cancel₀ _ pe.ne']
  rw [e1, abs_mul, abs_of_pos pe]
  refine le_trans (mul_le_mul_of_nonneg_right e pe.le) ?_
  have e2 : (1 / 2 : K) * 2 ^ (L + 1 - (p : Int)) = 2 ^ (-(p : Int)) * 2 ^ L := by
    rw [← zpow_add₀ h2, show L + 1 - (p : Int) = (-(p : Int) + L) + 1 by ring, zpow_add_one₀ h2]
    ring
  rw [e2]
  exact mul_le_mul_of_nonneg_left a (zpow_pos (by norm_num) _).le

theorem log_two_zpow (j : Int) : Int.log 2 ((2 : K) ^ j) = j := by
  have := Int.log_zpow (R := K) (b := 2) (by omega) j
  exact_mod_cast this

include hp in
theorem roundBits_idem (x : K) : roundBits p (roundBits p x) = roundBits p x := by
  have h2 : (2 : K) ≠ 0 := by norm_num
  by_cases hx : x = 0
  · subst hx; simp [roundBits]
  have hr := roundBits_range hp hx
  have pL : (0 : K) < 2 ^ Int.log 2 |x| := zpow_pos (by norm_num) _
  have hk : roundBits p x = nearestEven (x / 2 ^ (Int.log 2 |x| + 1 - (p : Int))) * 2 ^ (Int.log 2 |x| + 1 - (p : Int)) := by
    rw [roundBits, if_neg hx]
  generalize hy : roundBits p x = y at *
  generalize Int.log 2 |x| = L at *
  have hay : 2 ^ L ≤ |y| ∧ |y| ≤ 2 ^ (L + 1) := by
    rcases lt_or_gt_of_ne hx with h | h
    · have := hr.2 h
      rw [abs_of_neg (by linarith [this.2])]
      constructor <;> linarith [this.1, this.2]
    · have := hr.1 h
      rw [abs_of_pos (by linarith [this.1])]
      exact this
  have hy0 : y ≠ 0 := by
    intro h; rw [h, abs_zero] at hay; linarith [hay.1]
  rcases hay.2.lt_or_eq with hlt | heq
  · refine roundBits_grid hk ?_
    have : Int.log 2 |y| < L + 1 := by
      have l := (log_range hy0).1
      exact (zpow_lt_zpow_iff_right₀ (by norm_num : (1 : K) < 2)).1 (lt_of_le_of_lt l hlt)
    omega
  · -- a power of two
    have e : ∃ s : Int, (s = 1 ∨ s = -1) ∧ y = s * 2 ^ (L + 1) := by
      rcases abs_choice y with h | h
      · exact ⟨1, .inl rfl, by rw [← heq, h]; simp⟩
      · exact ⟨-1, .inr rfl, by rw [← heq, h]; simp⟩
    obtain ⟨s, _, hs⟩ := e
    refine roundBits_grid hs ?_
    rw [heq, log_two_zpow]
    omega

include hp in
theorem roundBits_mono {x y : K} (h : x ≤ y) : roundBits p x ≤ roundBits p y := by
  have one2 : (1 : K) ≤ 2 := by norm_num
  have pz : ∀ j : Int, (0 : K) < 2 ^ j := fun j => zpow_pos (by norm_num) j
  have r0 : roundBits p (0 : K) = 0 := by simp [roundBits]
  have neg : ∀ {z : K}, z < 0 → roundBits p z < 0 := fun {z} hz => by
    have := ((roundBits_range hp hz.ne).2 hz).2
    linarith [pz (Int.log 2 |z|)]
  have pos : ∀ {z : K}, 0 < z → 0 < roundBits p z := fun {z} hz => by
    have := ((roundBits_range hp hz.ne').1 hz).1
    linarith [pz (Int.log 2 |z|)]
  have same : x ≠ 0 → y ≠ 0 → Int.log 2 |x| = Int.log 2 |y| → roundBits p x ≤ roundBits p y := by
    intro hx hy e
    unfold roundBits
    rw [if_neg hx, if_neg hy, e]
    refine mul_le_mul_of_nonneg_right ?_ (pz _).le
    exact_mod_cast nearestEven_mono (div_le_div_of_nonneg_right h (pz _).le)
  rcases lt_trichotomy x 0 with hx | hx | hx
  · rcases lt_trichotomy y 0 with hy | hy | hy
    · have hl : Int.log 2 |y| ≤ Int.log 2 |x| := Int.log_mono_right (abs_pos.2 hy.ne) (by rw [abs_of_neg hx, abs_of_neg hy]; linarith)
      rcases hl.lt_or_eq with hl | hl
      · have a := ((roundBits_range hp hx.ne).2 hx).2
        have b := ((roundBits_range hp hy.ne).2 hy).1
        have c : (2 : K) ^ (Int.log 2 |y| + 1) ≤ 2 ^ Int.log 2 |x| := zpow_le_zpow_right₀ one2 (by omega)
        linarith
      · exact same hx.ne hy.ne hl.symm
    · rw [hy, r0]; exact (neg hx).le
    · exact ((neg hx).trans (pos hy)).le
  · rw [hx, r0]
    rcases (hx ▸ h : (0 : K) ≤ y).eq_or_lt with hy | hy
    · rw [← hy, r0]
    · exact (pos hy).le
  · have hy : 0 < y := lt_of_lt_of_le hx h
    have hl : Int.log 2 |x| ≤ Int.log 2 |y| := Int.log_mono_right (abs_pos.2 hx.ne') (by rw [abs_of_pos hx, abs_of_pos hy]; exact h)
    rcases hl.lt_or_eq with hl | hl
    · have a := ((roundBits_range hp hx.ne').1 hx).2
      have b := ((roundBits_range hp hy.ne').1 hy).1
      have c : (2 : K) ^ (Int.log 2 |x| + 1) ≤ 2 ^ Int.log 2 |y| := zpow_le_zpow_right₀ one2 (by omega)
      linarith
    · exact same hx.ne' hy.ne' hl

end bits

/-- arithmetic with `p` binary digits, rounding to nearest, ties to even -/
def binary (p : Nat) (hp : 1 ≤ p) : Rounding K where
  fl := roundBits p
  u := 2 ^ (-(p : Int))
  mono _ _ h := roundBits_mono hp h
  idem := roundBits_idem hp
  err := roundBits_err
  u_nonneg := (zpow_pos (by norm_num) _).le
  u_lt_one := zpow_lt_one_of_neg₀ (by norm_num) (by omega)

end Melodist
