import Verif.Model.Util
import Verif.Model.UtilPhys
import Mathlib.Analysis.SpecialFunctions.Pow.Real

/-!
# Model of melodist/wind.py
-/

set_option linter.unusedSectionVars false

namespace Melodist

noncomputable section

/-- `x ** p` for a positive, non-integer power: NaN for negative numbers -/
def XF.powPos (p : ℝ) : XF ℝ → XF ℝ
  | .nan => .nan
  | .ninf => .pinf
  | .fin x => if 0 ≤ x then .fin (x ^ p) else .nan
  | .pinf => .pinf

/-- wind.py:28-42 `_cosine_function` for one (mean_wind, t) -/
def cosineCell (a b tShift : ℝ) (mean : XF ℝ) (t : Int) : XF ℝ :=
  .fin a * mean * XF.cos (.fin (Real.pi * ((t : ℝ) - tShift) / 12)) + .fin b * mean

/-- the return value: a Series (methods 'equal' and 'random') or a plain array, one value per hour ('cosine') -/
inductive WindResult where
  | series (s : Series (XF ℝ))
  | array (l : List (XF ℝ))

/-- the hourly values, in order -/
def WindResult.values : WindResult → List (XF ℝ)
  | .series s => Series.values s
  | .array l => l

/-- wind.py:45-72 `disaggregate_wind`; `draw k` is the k-th number of `np.random.rand(len(wind_eq))` -/
def disaggregateWind (api : PandasApi) (draw : Nat → ℝ) (daily : Series (XF ℝ)) (method : String := "equal")
    (a b tShift : Option ℝ := none) : Py WindResult := do
  if ¬ (method = "equal" ∨ method = "cosine" ∨ method = "random") then throw .assertionError
  let windEq ← distributeEqually api daily
  if method = "equal" then .ok (.series windEq)
  else if method = "cosine" then
    match a, b, tShift with
    | some a, some b, some tShift => .ok (.array (windEq.map fun r => cosineCell a b tShift r.2 (hourOf r.1)))
    | _, _, _ => throw .assertionError
  else
    .ok (.series (windEq.zipIdx.map fun r => (r.1.1, r.1.2 * XF.powPos 0.3 (-(XF.log (.fin (draw r.2)))))))

/-- wind.py:84-89: the rows (daily mean, hour, hourly value) given to `curve_fit`; rows with NaN are dropped, infinite values are refused
(`check_finite`) -/
def fitRows (wind : Series (XF ℝ)) : Py (List (ℝ × Int × ℝ)) :=
  let daily := Series.groupbyDate meanSkip wind
  let rows := wind.map fun r => ((daily.at? (midnight (dayOf r.1))).getD .nan, hourOf r.1, r.2)
  let rows := rows.filter fun r => !r.1.isNan && !r.2.2.isNan
  rows.mapM fun
    | (.fin m, h, .fin y) => .ok (m, h, y)
    | _ => .error .valueError

/-- the residual of `_cosine_function` on one row -/
def fitResidual (a b tShift : ℝ) (r : ℝ × Int × ℝ) : ℝ :=
  a * r.1 * Real.cos (Real.pi * ((r.2.1 : ℝ) - tShift) / 12) + b * r.1 - r.2.2

/-- wind.py:75-92 `fit_cosine_function`; `optimise` stands for `scipy.optimize.curve_fit(_cosine_function, x, y)` -/
def fitCosineFunction (optimise : List (ℝ × Int × ℝ) → Py (ℝ × ℝ × ℝ)) (wind : Series (XF ℝ)) : Py (ℝ × ℝ × ℝ) := do
  optimise (← fitRows wind)

end

end Melodist
