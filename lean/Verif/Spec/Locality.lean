import Verif.Spec.Basic
import Verif.Model.Util
import Verif.Model.Wind

/-!
# Vocabulary for comparing results on single days (C100)
-/

namespace Melodist.Spec

/-- the index consists of the `n` days from `d0` on -/
def Covers (idx : List Time) (d0 : Int) (n : Nat) : Prop := idx = (List.range n).map fun i : Nat => at00 (d0 + i)

/-- day `D` is one of the `n` days from `d0` on -/
def InPeriod (d0 : Int) (n : Nat) (D : Int) : Prop := d0 ≤ D ∧ D < d0 + n

/-- the value in a column on day `D`; `none` if there is no such column or no such day -/
def cellOn {K : Type} (f : Frame K) (name : String) (D : Int) : Option (XF K) := (f.col? name).bind fun s => Series.at? s (at00 D)

/-- the two tables have the same columns and values on day `D` (or neither has this day) -/
def SameOn {K : Type} (f g : Frame K) (D : Int) : Prop := ∀ name, cellOn f name D = cellOn g name D

/-- the values of day `D` in a wind result for data from day `d0` on (the 'cosine' method returns an array without timestamps) -/
def windDay (r : WindResult) (d0 D : Int) : List (XF ℝ) :=
  match r with
  | .series s => dayCells s D
  | .array l => (l.drop (24 * (D - d0).toNat)).take 24

/-- the rows of a series on day `D` -/
def rowsOn {V : Type} (s : Series V) (D : Int) : Series V := s.filter fun r => dayOf r.1 == D

end Melodist.Spec
