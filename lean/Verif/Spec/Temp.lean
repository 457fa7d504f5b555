import Mathlib.Data.Real.Basic
import Mathlib.Algebra.Order.Group.Abs
import Verif.Spec.Basic

/-!
# Vocabulary for temperature
-/

namespace Melodist.Spec

/-- the value of the next day; the last of `n` days takes its own -/
def nextDay {V : Type} (n : Nat) (v : Nat → V) (i : Nat) : V := if i + 1 < n then v (i + 1) else v i

/-- the value of the previous day; the first day takes its own -/
def prevDay {V : Type} (v : Nat → V) (i : Nat) : V := if i = 0 then v i else v (i - 1)

/-- `k` is the integer nearest to `x` (the even one of two) -/
def Nearest (k : Int) (x : ℝ) : Prop := |(k : ℝ) - x| ≤ 1 / 2 ∧ (|(k : ℝ) - x| = 1 / 2 → k % 2 = 0)

end Melodist.Spec
