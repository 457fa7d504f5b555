import Verif.Spec.Basic
import Verif.Model.Util

/-!
# Vocabulary for comparing two runs by size (C101)
-/

namespace Melodist.Spec

/-- both cells are missing, or both are numbers and the first is at most the second -/
def AtMost {K : Type} [LE K] : XF K → XF K → Prop
  | .fin x, .fin y => x ≤ y
  | .nan, .nan => True
  | _, _ => False

/-- the two series have the same timestamps, and each value of the first is at most the value of the second (or both are missing) -/
def SeriesAtMost {K : Type} [LE K] (s s' : Series (XF K)) : Prop := List.Forall₂ (fun r r' => r.1 = r'.1 ∧ AtMost r.2 r'.2) s s'

/-- both tables have the column, and its values in the first table are at most those in the second -/
def ColAtMost {K : Type} [LE K] (f g : Frame K) (name : String) : Prop :=
  ∃ s s', f.col? name = some s ∧ g.col? name = some s' ∧ SeriesAtMost s s'

end Melodist.Spec
