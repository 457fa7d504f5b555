import Verif.Spec.Units
import Verif.Model.Precip
import Verif.Model.Aggregate

/-!
# Change of units: objects of the precipitation module

Branching probabilities and weights have no unit; the thresholds of the intensity classes are amounts.
-/

set_option linter.unusedSectionVars false

namespace Melodist

variable {K : Type} [Field K] [LinearOrder K]

/-- statistics with the thresholds in other units -/
def CascStats.inUnits (s : K) (c : CascStats K) : CascStats K := { c with threshold := c.threshold.map (Spec.inUnits s 0) }

/-- cascade options with the thresholds in other units -/
def CascOptions.inUnits (s : K) : CascOptions K → CascOptions K
  | .one c => .one (c.inUnits s)
  | .many l => .many (l.map (CascStats.inUnits s))
  | .other => .other

/-- the result of the cascade in other units: the boxes of all levels, the fine values and the series -/
def CascadeOut.inUnits (s : K) (o : CascadeOut K) : CascadeOut K :=
  ⟨o.levels.map (List.map (s * ·)), o.fine.map (s * ·), Spec.seriesInUnits s 0 o.series⟩

/-- the statistics of one season (an object, or a list of objects, one per level) with the thresholds in other units -/
def seasonUnits (s : K) : CascStats K ⊕ List (CascStats K) → CascStats K ⊕ List (CascStats K)
  | .inl c => .inl (c.inUnits s)
  | .inr l => .inr (l.map (CascStats.inUnits s))

end Melodist
