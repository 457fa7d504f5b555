import Verif.Base.Num
import Verif.Base.Time

/-!
# Vocabulary for the statements of the properties

These definitions do not refer to the model of the code.
-/

namespace Melodist.Spec

variable {V : Type}

/-- 00:00 of day `d` -/
def at00 (d : Int) : Time := d * 86400000000

/-- full hour `h` of day `d` -/
def atHour (d : Int) (h : Nat) : Time := d * 86400000000 + h * 3600000000

/-- The gap-free daily series with `n` rows that starts on day `d0` and has value `v i` on day `d0 + i`.
(Every gap-free daily series is of this form.) -/
def dailyS (d0 : Int) (n : Nat) (v : Nat → V) : List (Time × V) :=
  (List.range n).map fun i : Nat => (at00 (d0 + i), v i)

/-- The hourly series that covers the `n` days from `d0` on completely: value `f i h` at hour `h` (0..23) of day
`d0 + i`. -/
def hourlyS (d0 : Int) (n : Nat) (f : Nat → Nat → V) : List (Time × V) :=
  (List.range (24 * n)).map fun k : Nat => (atHour (d0 + (k / 24 : Nat)) (k % 24), f (k / 24) (k % 24))

/-- the values a series has on day `d`, in row order -/
def dayCells (s : List (Time × V)) (d : Int) : List V :=
  (s.filter fun r => decide (r.1 / 86400000000 = d)).map Prod.snd

/-- the values `f 0, …, f 23` of one day -/
def day24 (f : Nat → V) : List V := (List.range 24).map f

end Melodist.Spec

namespace Melodist.Spec

variable {K : Type}

/-- all cells are numbers, and they add up to `x` -/
def TotalIs [AddMonoid K] (cells : List (XF K)) (x : K) : Prop :=
  ∃ ys : List K, cells = ys.map XF.fin ∧ ys.sum = x

/-- all cells are numbers, and their arithmetic mean is `x` -/
def MeanIs [Field K] (cells : List (XF K)) (x : K) : Prop :=
  ∃ ys : List K, cells = ys.map XF.fin ∧ ys ≠ [] ∧ ys.sum / (ys.length : K) = x

/-- all cells are missing -/
def AllNan (cells : List (XF K)) : Prop := ∀ c ∈ cells, c = XF.nan

/-- all cells are numbers, `x` is the smallest of them -/
def MinIs [LE K] (cells : List (XF K)) (x : K) : Prop :=
  ∃ ys : List K, cells = ys.map XF.fin ∧ x ∈ ys ∧ ∀ y ∈ ys, x ≤ y

/-- all cells are numbers, `x` is the largest of them -/
def MaxIs [LE K] (cells : List (XF K)) (x : K) : Prop :=
  ∃ ys : List K, cells = ys.map XF.fin ∧ x ∈ ys ∧ ∀ y ∈ ys, y ≤ x

/-- the numbers among the cells -/
def numbers (cells : List (XF K)) : List K :=
  cells.filterMap fun
    | .fin x => some x
    | _ => none

end Melodist.Spec
