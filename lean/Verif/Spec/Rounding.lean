import Mathlib.Algebra.Order.Field.Basic
import Mathlib.Data.Int.Log
import Mathlib.Data.Rat.Floor

/-!
# Floating-point arithmetic as rounded exact arithmetic (C102)

The usual model of floating-point arithmetic without overflow and underflow: the result of an operation is the exact result, rounded.
-/

namespace Melodist.Spec

/-- A way of rounding: monotone, a rounded number is not changed by rounding again, and the relative error is at most `u < 1`. -/
structure Rounding (K : Type) [Field K] [LinearOrder K] where
  fl : K → K
  u : K
  mono : ∀ x y, x ≤ y → fl x ≤ fl y
  idem : ∀ x, fl (fl x) = fl x
  err : ∀ x, |fl x - x| ≤ u * |x|
  u_nonneg : 0 ≤ u
  u_lt_one : u < 1

variable {K : Type} [Field K] [LinearOrder K] [IsStrictOrderedRing K] [FloorRing K]

/-- nearest integer, ties to even -/
def nearestEven (x : K) : Int :=
  if x - ⌊x⌋ < 1 / 2 then ⌊x⌋ else if 1 / 2 < x - ⌊x⌋ then ⌊x⌋ + 1 else if ⌊x⌋ % 2 = 0 then ⌊x⌋ else ⌊x⌋ + 1

/-- nearest number with `p` significant binary digits, ties to even; `p = 53` is binary64 (without its bounds on the exponent) -/
def roundBits (p : Nat) (x : K) : K :=
  if x = 0 then 0 else nearestEven (x / 2 ^ (Int.log 2 |x| + 1 - (p : Int))) * 2 ^ (Int.log 2 |x| + 1 - (p : Int))

/-- `t` is the result of adding the numbers of a non-empty list in rounded arithmetic, in some order and with some bracketing -/
inductive AddsTo {K : Type} [Field K] (fl : K → K) : List K → K → Prop
  | one (x : K) : AddsTo fl [x] x
  | add {l m : List K} {a b : K} : AddsTo fl l a → AddsTo fl m b → AddsTo fl (l ++ m) (fl (a + b))
  | perm {l m : List K} {a : K} : AddsTo fl l a → l.Perm m → AddsTo fl m a

end Melodist.Spec
