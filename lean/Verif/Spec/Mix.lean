import Verif.Spec.Basic
import Verif.Model.Util

/-!
# Vocabulary for superposition (C118)
-/

namespace Melodist.Spec
variable {K : Type} [Field K] [LinearOrder K]

/-- the third cell is `α` times the first plus `β` times the second; it is missing exactly if one of them is missing; no infinite values -/
def Mix (α β : K) : XF K → XF K → XF K → Prop
  | .fin x, .fin y, .fin z => z = α * x + β * y
  | .nan, .fin _, .nan => True
  | .fin _, .nan, .nan => True
  | .nan, .nan, .nan => True
  | _, _, _ => False

/-- the three series have the same timestamps, and at each of them the third value is `α` times the first plus `β` times the second -/
def SeriesMix (α β : K) (s s' t : Series (XF K)) : Prop :=
  s.index = t.index ∧ s'.index = t.index ∧
    ∀ (k : Nat) (a b c : Time × XF K), s[k]? = some a → s'[k]? = some b → t[k]? = some c → Mix α β a.2 b.2 c.2

/-- all three tables have the column, and it is mixed in this way -/
def ColMix (α β : K) (f g h : Frame K) (name : String) : Prop :=
  ∃ s s' t, f.col? name = some s ∧ g.col? name = some s' ∧ h.col? name = some t ∧ SeriesMix α β s s' t

end Melodist.Spec
