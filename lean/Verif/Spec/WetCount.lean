import Verif.Spec.CascadeMean

/-!
# Wet boxes and wet hours of a cascade run
-/

namespace Melodist.Spec
open Classical

/-- 1 for a wet box, 0 for a dry one -/
noncomputable def wetMark (x : ℝ) : ℝ := if 0 < x then 1 else 0

/-- the number of wet boxes of level `l` (levels from 0: the half days) on the `i`-th day of a cascade run -/
noncomputable def wetBoxCount (run : Py (CascadeOut ℝ)) (l i : Nat) : ℝ := ∑ j ∈ Finset.range (2 ^ (l + 1)), wetMark (amountIn run l (2 ^ (l + 1) * i + j))

/-- the number of wet hours of day `d` in the result of a cascade run -/
noncomputable def wetHourCount (run : Py (CascadeOut ℝ)) (d : Int) : ℝ := ∑ h ∈ Finset.range 24, wetMark (hourAmount run d h)

/-- probability that both halves of a wet box are wet -/
noncomputable def SplitLaw.bothWet (q : SplitLaw) : ℝ := 1 - q.p01 - q.p10

end Melodist.Spec
