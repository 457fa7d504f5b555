import Verif.Spec.WetCount
import Verif.Spec.CascadeMean

/-!
# Vocabulary for the sample statistics of the package (C162)
-/

set_option linter.unusedSectionVars false

namespace Melodist.Spec

/-- the sample statistics for one intensity class and position type -/
noncomputable def sampleLaw (b : Fin 2) (t : Fin 4) : SplitLaw := ⟨sampleP01 b t, sampleP10 b t, fun k => sampleWxx k b t⟩

/-- the same with the middle weight replaced by what the other six leave to 1 -/
noncomputable def exactLaw (b : Fin 2) (t : Fin 4) : SplitLaw :=
  ⟨sampleP01 b t, sampleP10 b t, fun k => if k = 3 then 1 - (sampleWxx 0 b t + sampleWxx 1 b t + sampleWxx 2 b t + sampleWxx 4 b t + sampleWxx 5 b t + sampleWxx 6 b t) else sampleWxx k b t⟩

/-- `fill_with_sample_data` with the middle weights replaced in this way -/
noncomputable def fillExact (s : CascStats ℝ) : CascStats ℝ := { s.fillSample with wxx := fun k b t => .fin ((exactLaw b t).w k) }

end Melodist.Spec
