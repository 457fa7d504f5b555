import Verif.Spec.Rounding

/-!
# Floating-point arithmetic with gradual underflow (C129)

In IEEE arithmetic the numbers next to 0 have the same distance from each other as the smallest positive number has from 0.  The result of an operation is the exact result, rounded, with an
additional absolute error; sums and differences of floating-point numbers do not have it.
-/

namespace Melodist.Spec

/-- A way of rounding with underflow: monotone, a rounded number is not changed by rounding again, 0 and 1 are not changed, the error is at most `u` times the number plus `a`, and the
error of the sum or difference of two numbers that rounding does not change is at most `u` times the sum or difference. -/
structure GradualRounding (K : Type) [Field K] [LinearOrder K] where
  fl : K → K
  u : K
  a : K
  mono : ∀ x y, x ≤ y → fl x ≤ fl y
  idem : ∀ x, fl (fl x) = fl x
  zero : fl 0 = 0
  one : fl 1 = 1
  err : ∀ x, |fl x - x| ≤ u * |x| + a
  add : ∀ x y, fl x = x → fl y = y → |fl (x + y) - (x + y)| ≤ u * |x + y|
  sub : ∀ x y, fl x = x → fl y = y → |fl (x - y) - (x - y)| ≤ u * |x - y|
  u_nonneg : 0 ≤ u
  u_lt_one : u < 1
  a_nonneg : 0 ≤ a

variable {K : Type} [Field K] [LinearOrder K] [IsStrictOrderedRing K] [FloorRing K]

/-- a floating-point number: at most `p` binary digits, multiple of `2 ^ e` -/
def Binary (p : Nat) (e : Int) (y : K) : Prop := ∃ k j : Int, |k| < 2 ^ p ∧ e ≤ j ∧ y = k * 2 ^ j

/-- nearest multiple of `2 ^ e` with at most `p` significant binary digits, ties to even; `p = 53`, `e = -1074` is binary64 (without its largest number) -/
def roundGradual (p : Nat) (e : Int) (x : K) : K :=
  nearestEven (x / 2 ^ max (Int.log 2 |x| + 1 - (p : Int)) e) * 2 ^ max (Int.log 2 |x| + 1 - (p : Int)) e

/-- `fl` rounds like binary64 unless the number is large (2¹⁰²³ is about half of the largest number); nothing is said about what happens beyond -/
def IsBinary64 (fl : K → K) : Prop := ∀ x, |x| ≤ 2 ^ 1023 → fl x = roundGradual 53 (-1074) x

end Melodist.Spec
