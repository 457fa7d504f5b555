import Verif.Model.HumidityRound

/-!
# `dewpoint_temperature` in rounded arithmetic

`dewpointCell` of `Model/UtilPhys.lean` once more, with every operation followed by a rounding (in the order of the code), the constants rounded, and `np.exp` and `np.log` as
given by the platform.  (`Props/DewRound.lean` shows that it is the original function for exact operations.)  Simplification: no overflow or underflow.
-/

set_option linter.unusedSectionVars false

namespace Melodist

noncomputable section

/-- `np.log` of a cell: `log 0 = -inf`, NaN for negative numbers -/
def logCell (log : ℝ → ℝ) : XF ℝ → XF ℝ
  | .nan => .nan
  | .ninf => .nan
  | .fin x => if 0 < x then .fin (log x) else if x = 0 then .ninf else .nan
  | .pinf => .pinf

/-- util.py:123-134: one branch of `dewpoint_temperature`, with the constants `a` and `b`, for the vapour pressure `vp` -/
def dewBranchR (F : FloatHum) (log : ℝ → ℝ) (a b : ℝ) (vp : XF ℝ) : XF ℝ :=
  let l := logCell log ((vp / .fin (F.fl 6.112)).rnd F.fl)
  ((((.fin (F.fl b) * l).rnd F.fl / (.fin (F.fl a) - l).rnd F.fl).rnd F.fl) + .fin (F.fl kelvin0)).rnd F.fl

/-- util.py:119-134 `dewpoint_temperature` for one cell -/
def dewpointCellR (F : FloatHum) (log : ℝ → ℝ) (temp hum : XF ℝ) : XF ℝ :=
  let vp := vaporPressureCellR F temp hum
  if XF.le (.fin (F.fl kelvin0)) temp then dewBranchR F log 17.62 243.12 vp else dewBranchR F log 22.46 272.62 vp

/-- util.py:105-134 `dewpoint_temperature` on arrays -/
def dewpointTemperatureR (F : FloatHum) (log : ℝ → ℝ) (temp hum : List (XF ℝ)) : Py (List (XF ℝ)) :=
  if temp.length = hum.length then .ok (List.zipWith (dewpointCellR F log) temp hum) else .error .assertionError

end

end Melodist
