import Verif.Spec.CascadeMean
import Verif.Model.Aggregate
import Mathlib.Data.Real.Archimedean

/-!
# Statistics fitted to a level of a cascade run
-/

namespace Melodist.Spec

/-- `aggregate_precipitation` applied to the values of level `l` of a cascade run, at the times `times` -/
noncomputable def levelFit (times : List Time) (run : Py (CascadeOut ℝ)) (l : Nat) (percentile : ℝ) : Py (CascStats ℝ) := match run with
  | .ok r => (aggregatePrecipitation (times.zip ((r.levels.getD l []).map .fin)) percentile).map Prod.fst
  | .error e => .error e

/-- the number in an entry of fitted statistics; 0 if there is none -/
def fitEntry (fit : Py (CascStats ℝ)) (entry : CascStats ℝ → XF ℝ) : ℝ := match fit with
  | .ok s => match entry s with
    | .fin x => x
    | _ => 0
  | .error _ => 0

/-- the wet boxes of intensity class `b` and position type `t` among the boxes `p` -/
noncomputable def boxesOf (thr : XF ℝ) (p : List ℝ) (b : Fin 2) (t : Fin 4) : Finset Nat :=
  (Finset.range p.length).filter fun j => 0 < p.getD j 0 ∧ (if XF.lt thr (.fin (p.getD j 0)) then (1 : Fin 2) else 0) = b ∧ posType p j = t

end Melodist.Spec
