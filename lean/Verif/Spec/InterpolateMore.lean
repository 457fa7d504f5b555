import Verif.Props.Interpolate
import Verif.Model.InterpolateMore

/-!
# Gaps filled by a rule
-/

namespace Melodist.Spec
variable {K : Type} [Field K] [LinearOrder K]

/-- position and value of the nearest observation before cell `k`, if there is one -/
def PrevIs (ys : List (XF K)) (k : Nat) : Option (Nat × K) → Prop
  | none => NoPrevObs ys k
  | some (p, a) => PrevObs ys k p a

/-- position and value of the nearest observation after cell `k`, if there is one -/
def NextIs (ys : List (XF K)) (k : Nat) : Option (Nat × K) → Prop
  | none => NoNextObs ys k
  | some (q, b) => NextObs ys k q b

/-- `zs` is `ys` with gaps filled: observations are kept, a missing cell that may be filled (see `MayFill`) gets the value the rule gives for the nearest observations before and
after it, all other cells stay missing. -/
def FilledBy (limit : Option Nat) (direction : LimitDirection) (area : Option LimitArea) (rule : Nat → Option (Nat × K) → Option (Nat × K) → XF K) (ys zs : List (XF K)) : Prop :=
  zs.length = ys.length ∧ ∀ k (hk : k < ys.length),
    (ys[k] ≠ .nan → zs[k]? = some ys[k]) ∧
    (ys[k] = .nan → ∀ before after, PrevIs ys k before → NextIs ys k after →
      (MayFill limit direction area (before.map fun o => k - o.1) (after.map fun o => o.1 - k) → zs[k]? = some (rule k before after)) ∧
      (¬ MayFill limit direction area (before.map fun o => k - o.1) (after.map fun o => o.1 - k) → zs[k]? = some .nan))

/-- the straight line between the two observations, the nearest one at the ends -/
def lineRule (k : Nat) : Option (Nat × K) → Option (Nat × K) → XF K
  | some (p, a), some (q, b) => .fin (a + (b - a) * ((k : K) - p) / ((q : K) - p))
  | some (_, a), none => .fin a
  | none, some (_, b) => .fin b
  | none, none => .nan

/-- the straight line between two observations, nothing at the ends -/
def segmentRule (k : Nat) : Option (Nat × K) → Option (Nat × K) → XF K
  | some (p, a), some (q, b) => .fin (a + (b - a) * ((k : K) - p) / ((q : K) - p))
  | _, _ => .nan

/-- the nearer one of two observations, the earlier one in the middle; nothing at the ends -/
def nearerRule (k : Nat) : Option (Nat × K) → Option (Nat × K) → XF K
  | some (p, a), some (q, b) => .fin (if k - p ≤ q - k then a else b)
  | _, _ => .nan

/-- the earlier one of two observations; nothing at the ends -/
def earlierRule (_ : Nat) : Option (Nat × K) → Option (Nat × K) → XF K
  | some (_, a), some _ => .fin a
  | _, _ => .nan

/-- the last observation -/
def lastRule (_ : Nat) : Option (Nat × K) → Option (Nat × K) → XF K
  | some (_, a), _ => .fin a
  | none, _ => .nan

/-- the next observation -/
def nextRule (_ : Nat) : Option (Nat × K) → Option (Nat × K) → XF K
  | _, some (_, b) => .fin b
  | _, none => .nan

/-- a given value between two observations, nothing at the ends -/
def innerRule (value : Nat → XF K) (k : Nat) : Option (Nat × K) → Option (Nat × K) → XF K
  | some _, some _ => value k
  | _, _ => .nan

end Melodist.Spec
