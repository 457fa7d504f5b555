import Mathlib.Algebra.Order.Field.Basic
import Mathlib.Data.Fin.VecNotation
import Mathlib.Data.List.FinRange
import Verif.Base.Num

/-!
# Vocabulary for the cascade statistics

A series `x 0, x 1, …` is grouped into boxes of two consecutive values.
-/

namespace Melodist.Spec

variable {K : Type} [Field K] [LinearOrder K]

/-- precipitation of box `j` -/
def box (x : Nat → K) (j : Nat) : K := x (2 * j) + x (2 * j + 1)

/-- position type of a wet box among `m` boxes: 0 = starting (only the next box is wet), 1 = enclosed (both neighbours are wet),
2 = ending (only the previous box is wet), 3 = isolated -/
def boxKind (x : Nat → K) (m j : Nat) : Fin 4 :=
  if 0 < j ∧ 0 < box x (j - 1) then (if j + 1 < m ∧ 0 < box x (j + 1) then 1 else 2)
  else if j + 1 < m ∧ 0 < box x (j + 1) then 0 else 3

/-- intensity class: 1 = above the threshold, 0 = not above -/
def intensity (thr v : K) : Fin 2 := if thr < v then 1 else 0

/-- number of wet boxes of intensity class `b` and position type `t` whose two values satisfy `cond` -/
def boxCount (x : Nat → K) (m : Nat) (thr : K) (b : Fin 2) (t : Fin 4) (cond : K → K → Prop) [∀ u v, Decidable (cond u v)] : Nat :=
  ((List.range m).filter fun j =>
    decide (0 < box x j ∧ intensity thr (box x j) = b ∧ boxKind x m j = t ∧ cond (x (2 * j)) (x (2 * j + 1)))).length

/-- the limits of the seven weight classes -/
def classLimit : Fin 8 → K := ![0, 1429 / 10000, 2857 / 10000, 4286 / 10000, 5714 / 10000, 7143 / 10000, 8571 / 10000, 1]

/-! ## Branching of a box in the disaggregation -/

/-- position type of box `j` of the boxes `y`: 0 = starting, 1 = enclosed, 2 = ending, 3 = isolated -/
def posType (y : List K) (j : Nat) : Fin 4 :=
  if 0 < j ∧ 0 < y.getD (j - 1) 0 then (if 0 < y.getD (j + 1) 0 then 1 else 2)
  else if 0 < y.getD (j + 1) 0 then 0 else 3

/-- cumulative weights: `w 0 + w 1 + … + w c` -/
def cumWeight (w : Fin 7 → XF K) (c : Fin 7) : XF K := (((List.finRange 7).take (c + 1)).tail).foldl (fun acc k => acc + w k) (w 0)

/-- class `c` is the first one whose cumulative weight is not below `u` -/
def FirstClass (w : Fin 7 → XF K) (u : K) (c : Fin 7) : Prop :=
  XF.le (.fin u) (cumWeight w c) ∧ ∀ c' < c, ¬ XF.le (.fin u) (cumWeight w c')

/-- How a box with precipitation `y` is split.  `p01`, `p10` are the probabilities of its class and type, `w` its weight histogram.  A state
`(k, w1)` consists of the number of random numbers used so far and the last weight; the relation holds between the state before, the two
halves, and the state after. -/
inductive Branch (rnd : Nat → K) (p01 p10 : XF K) (w : Fin 7 → XF K) (y : K) : Nat × Option K → K → K → Nat × Option K → Prop
  /-- no precipitation: two dry halves, no random number -/
  | dry (k : Nat) (w1 : Option K) : y ≤ 0 → Branch rnd p01 p10 w y (k, w1) 0 0 (k, w1)
  /-- the random number is at most P(0/1): everything in the second half -/
  | second (k : Nat) (w1 : Option K) : 0 < y → XF.le (.fin (rnd k)) p01 → Branch rnd p01 p10 w y (k, w1) 0 y (k + 1, w1)
  /-- the random number is between P(0/1) and P(0/1)+P(1/0): everything in the first half -/
  | first (k : Nat) (w1 : Option K) : 0 < y → XF.lt p01 (.fin (rnd k)) → XF.le (.fin (rnd k)) (p01 + p10) →
      Branch rnd p01 p10 w y (k, w1) y 0 (k + 1, w1)
  /-- otherwise a second random number selects a weight class; the first half gets the class centre -/
  | both (k : Nat) (w1 : Option K) (c : Fin 7) : 0 < y → ¬ XF.le (.fin (rnd k)) p01 →
      ¬ (XF.lt p01 (.fin (rnd k)) ∧ XF.le (.fin (rnd k)) (p01 + p10)) → FirstClass w (rnd (k + 1)) c →
      Branch rnd p01 p10 w y (k, w1) ((classLimit c.succ - 1 / 14) * y) ((1 - (classLimit c.succ - 1 / 14)) * y)
        (k + 2, some (classLimit c.succ - 1 / 14))
  /-- if no class is found the weight of the last box that was split into two wet halves is used again -/
  | again (k : Nat) (w1 : K) : 0 < y → ¬ XF.le (.fin (rnd k)) p01 →
      ¬ (XF.lt p01 (.fin (rnd k)) ∧ XF.le (.fin (rnd k)) (p01 + p10)) → (∀ c, ¬ XF.le (.fin (rnd (k + 1))) (cumWeight w c)) →
      Branch rnd p01 p10 w y (k, some w1) (w1 * y) ((1 - w1) * y) (k + 2, some w1)

end Melodist.Spec
