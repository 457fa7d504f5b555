import Verif.Spec.CascadeLaw
import Verif.Model.Precip
import Verif.Spec.Basic

/-!
# Expected shares of the halves of a box
-/

namespace Melodist.Spec

/-- expected share of the first half of a box: everything with probability P(1/0), and the class centre if both halves are wet -/
noncomputable def SplitLaw.firstShare (q : SplitLaw) : ℝ := q.p10 + (1 - q.p01 - q.p10) * ∑ c, q.w c * centre c

/-- expected share of the second half -/
noncomputable def SplitLaw.secondShare (q : SplitLaw) : ℝ := q.p01 + (1 - q.p01 - q.p10) * ∑ c, q.w c * (1 - centre c)

/-- the amount in box `j` of level `l` of a cascade run (levels from 0: the half days) -/
def amountIn (run : Py (CascadeOut ℝ)) (l j : Nat) : ℝ := match run with
  | .ok r => (r.levels.getD l []).getD j 0
  | .error _ => 0

/-- the amount in hour `h` of day `d` of the result of a cascade run; 0 if it is missing -/
def hourAmount (run : Py (CascadeOut ℝ)) (d : Int) (h : Nat) : ℝ := match run with
  | .ok r => match (dayCells r.series d).getD h .nan with
    | .fin x => x
    | _ => 0
  | .error _ => 0

/-- the run succeeds and its first `l` levels are `past` -/
def firstLevels (run : Py (CascadeOut ℝ)) (l : Nat) (past : List (List ℝ)) : Prop := ∃ r, run = .ok r ∧ r.levels.take l = past

end Melodist.Spec
