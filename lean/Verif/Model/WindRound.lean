import Verif.Model.HourlyRound

/-!
# Random wind speeds in rounded arithmetic

wind.py:67-70 once more, with the numbers of `np.random.rand`, `np.log`, `**` and the literal 0.3 as the platform has them.
-/

set_option linter.unusedSectionVars false

namespace Melodist

noncomputable section

/-- the arithmetic of the platform: rounding after each operation, `np.log` of positive numbers and `x ** p` for numbers x ≥ 0 -/
structure PowMath where
  fl : ℝ → ℝ
  log : ℝ → ℝ
  pow : ℝ → ℝ → ℝ

/-- exact arithmetic -/
def PowMath.exact : PowMath := ⟨id, Real.log, fun x p => x ^ p⟩

/-- `np.log` of a number -/
def PowMath.logCell (F : PowMath) (u : ℝ) : XF ℝ := if 0 < u then .fin (F.log u) else if u = 0 then .ninf else .nan

/-- `x ** 0.3` of a cell -/
def PowMath.pow03 (F : PowMath) : XF ℝ → XF ℝ
  | .nan => .nan
  | .ninf => .pinf
  | .fin x => if 0 ≤ x then .fin (F.pow x (F.fl 0.3)) else .nan
  | .pinf => .pinf

/-- wind.py:45-70 `disaggregate_wind` with method 'random'; `draw k` is the k-th number of `np.random.rand(len(wind_eq))` -/
def randomWindR (F : PowMath) (api : PandasApi) (draw : Nat → ℝ) (daily : Series (XF ℝ)) : Py (Series (XF ℝ)) := do
  let windEq ← distributeEqually api daily
  .ok (windEq.zipIdx.map fun r => (r.1.1, (r.1.2 * F.pow03 (-(F.logCell (draw r.2)))).rnd F.fl))

end

end Melodist
