import Verif.Spec.Precip
import Mathlib.Data.Real.Basic
import Mathlib.Algebra.BigOperators.Fin
import Mathlib.Order.Interval.Finset.Fin

/-!
# The cascade as a random process

Probabilities of the outcomes of the cascade when the random numbers are independent and uniformly distributed on [0, 1].
-/

namespace Melodist.Spec

open Finset

/-- P(0/1), P(1/0) and the weight histogram for one intensity class and position type -/
structure SplitLaw where
  p01 : ℝ
  p10 : ℝ
  w : Fin 7 → ℝ

namespace SplitLaw

/-- no negative entries -/
def NonNeg (q : SplitLaw) : Prop := 0 ≤ q.p01 ∧ 0 ≤ q.p10 ∧ ∀ k, 0 ≤ q.w k

/-- the entries are probabilities: P(0/1) + P(1/0) does not exceed 1 and the weights add up to 1 -/
def Proper (q : SplitLaw) : Prop := q.NonNeg ∧ q.p01 + q.p10 ≤ 1 ∧ ∑ k, q.w k = 1

/-- probability that everything falls in the second half -/
noncomputable def second (q : SplitLaw) : ℝ := min 1 q.p01

/-- probability that everything falls in the first half -/
noncomputable def first (q : SplitLaw) : ℝ := min 1 (q.p01 + q.p10) - min 1 q.p01

/-- probability that both halves are wet -/
noncomputable def both (q : SplitLaw) : ℝ := 1 - min 1 (q.p01 + q.p10)

/-- probability of weight class `c` -/
noncomputable def cls (q : SplitLaw) (c : Fin 7) : ℝ := min 1 (∑ k ∈ Iic c, q.w k) - min 1 (∑ k ∈ Iio c, q.w k)

/-- probability that no weight class is found (weights adding up to less than 1) -/
noncomputable def noClass (q : SplitLaw) : ℝ := 1 - min 1 (∑ k, q.w k)

end SplitLaw

/-- centre of weight class `c` -/
noncomputable def centre (c : Fin 7) : ℝ := classLimit c.succ - 1 / 14

/-- probability that a box with precipitation `y` is split into `a` and `b`; `last` is the weight of the last box split into two wet halves -/
noncomputable def splitProb (q : SplitLaw) (last : Option ℝ) (y a b : ℝ) : ℝ :=
  if y ≤ 0 then (if a = 0 ∧ b = 0 then 1 else 0)
  else if a = 0 ∧ b = y then q.second
  else if a = y ∧ b = 0 then q.first
  else q.both * ∑ c, if a = centre c * y ∧ b = (1 - centre c) * y then q.cls c + (if last = some (centre c) then q.noClass else 0) else 0

/-- the weight of the last of the first `j` boxes of `p` split into two wet halves in `c`; `start` if there is none -/
noncomputable def lastWeight (p c : List ℝ) (start : Option ℝ) : Nat → Option ℝ
  | 0 => start
  | j + 1 => if 0 < c.getD (2 * j) 0 ∧ 0 < c.getD (2 * j + 1) 0 then some (c.getD (2 * j) 0 / p.getD j 0) else lastWeight p c start j

/-- probability that the boxes `p` of a level become `c`: the product over the boxes of the probabilities of their splits, each with
the entries for its intensity class and position type -/
noncomputable def levelProb (q : Fin 2 → Fin 4 → SplitLaw) (thr : XF ℝ) (start : Option ℝ) (p c : List ℝ) : ℝ :=
  if c.length = 2 * p.length then
    ∏ j ∈ range p.length, splitProb (q (if XF.lt thr (.fin (p.getD j 0)) then 1 else 0) (posType p j)) (lastWeight p c start j)
      (p.getD j 0) (c.getD (2 * j) 0) (c.getD (2 * j + 1) 0)
  else 0

/-- probability of the levels `ls`, starting from the boxes `p` at level `l`: the product over the levels -/
noncomputable def levelsProb (q : Nat → Fin 2 → Fin 4 → SplitLaw) (thr : Nat → XF ℝ) : Nat → Option ℝ → List ℝ → List (List ℝ) → ℝ
  | _, _, _, [] => 1
  | l, start, p, c :: ls => levelProb (q l) (thr l) start p c * levelsProb q thr (l + 1) (lastWeight p c start p.length) c ls

/-- the daily amounts, missing ones as 0 -/
noncomputable def dailyAmounts (n : Nat) (v : Nat → XF ℝ) : List ℝ := (List.range n).map fun i => match v i with
  | .fin x => x
  | _ => 0

/-- `splitProb` for proper probabilities: P(0/1), P(1/0), and the rest times the weights of the histogram -/
noncomputable def splitProbProper (q : SplitLaw) (y a b : ℝ) : ℝ :=
  if y ≤ 0 then (if a = 0 ∧ b = 0 then 1 else 0)
  else if a = 0 ∧ b = y then q.p01
  else if a = y ∧ b = 0 then q.p10
  else (1 - q.p01 - q.p10) * ∑ c, if a = centre c * y ∧ b = (1 - centre c) * y then q.w c else 0

end Melodist.Spec
