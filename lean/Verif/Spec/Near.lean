import Verif.Spec.Basic
import Verif.Model.Util

/-!
# Vocabulary for comparing two runs by distance (C113)
-/

namespace Melodist.Spec
variable {K : Type} [Field K] [LinearOrder K]

/-- both cells are missing, or both are numbers at most `ε` apart -/
def Near (ε : K) : XF K → XF K → Prop
  | .fin x, .fin y => |x - y| ≤ ε
  | .nan, .nan => True
  | _, _ => False

/-- the two series have the same timestamps, and their values are at most `ε` apart (or both missing) -/
def SeriesNear (ε : K) (s s' : Series (XF K)) : Prop := List.Forall₂ (fun r r' => r.1 = r'.1 ∧ Near ε r.2 r'.2) s s'

/-- both tables have the column, and its values in the two tables are at most `ε` apart -/
def ColNear (ε : K) (f g : Frame K) (name : String) : Prop :=
  ∃ s s', f.col? name = some s ∧ g.col? name = some s' ∧ SeriesNear ε s s'

end Melodist.Spec
