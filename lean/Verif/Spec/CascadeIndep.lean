import Verif.Spec.CascadeMean

/-!
# Parts of the result of a cascade run
-/

namespace Melodist.Spec

/-- the boxes of all levels that belong to the `k` days from day `a` of the record on (days from 0); level `l` has `2 ^ (l + 1)` boxes per day -/
def daysPart (a k : Nat) (levels : List (List ℝ)) : List (List ℝ) := levels.mapIdx fun l c => (c.drop (a * 2 ^ (l + 1))).take (k * 2 ^ (l + 1))

/-- the cells of the `k` days from day `d` on -/
def daysCells (s : Series (XF ℝ)) (d : Int) (k : Nat) : List (List (XF ℝ)) := (List.range k).map fun i : Nat => dayCells s (d + (i : Int))

end Melodist.Spec
