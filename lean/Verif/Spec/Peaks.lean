import Verif.Spec.WetCount

/-!
# Moments of the amounts of a cascade run
-/

namespace Melodist.Spec

/-- expected `r`-th power of the share of the first half of a wet box -/
noncomputable def SplitLaw.firstMoment (q : SplitLaw) (r : Nat) : ℝ := q.p10 + (1 - q.p01 - q.p10) * ∑ c, q.w c * centre c ^ r

/-- expected `r`-th power of the share of the second half -/
noncomputable def SplitLaw.secondMoment (q : SplitLaw) (r : Nat) : ℝ := q.p01 + (1 - q.p01 - q.p10) * ∑ c, q.w c * (1 - centre c) ^ r

/-- the sum of the `r`-th powers of the amounts in the boxes of level `l` (levels from 0: the half days) on the `i`-th day of a cascade run -/
noncomputable def boxPowers (run : Py (CascadeOut ℝ)) (r l i : Nat) : ℝ := ∑ j ∈ Finset.range (2 ^ (l + 1)), amountIn run l (2 ^ (l + 1) * i + j) ^ r

/-- the sum of the `r`-th powers of the hourly amounts of day `d` in the result of a cascade run -/
noncomputable def hourPowers (run : Py (CascadeOut ℝ)) (r : Nat) (d : Int) : ℝ := ∑ h ∈ Finset.range 24, hourAmount run d h ^ r

end Melodist.Spec
