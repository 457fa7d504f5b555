import Verif.Model.Humidity
import Mathlib.Analysis.SpecialFunctions.Pow.Real

/-!
# `linregress` and `calculate_dewpoint_regression` with `return_stats=True`
-/

namespace Melodist

noncomputable section

/-- util.py:137-157 `linregress(x, y, return_stats=True)`: (a1, a0, r_value, p_value, stderr) of scipy.stats.linregress.  The variances and the covariance are those of `np.cov(x, y, bias=1)`; r is 0 for equal y
values and cut to [-1, 1]; two points have the p-value 1 or 0 and the standard error 0.  `prob t df` stands for the p-value of Student's t distribution and is arbitrary.  One single point is outside the scope. -/
def linregressStats (prob : ℝ → Nat → ℝ) (pts : List (ℝ × ℝ)) : Py (XF ℝ × XF ℝ × XF ℝ × XF ℝ × XF ℝ) := do
  let (slope, icpt) ← linregress pts
  let n : ℝ := pts.length
  let mx := (pts.map Prod.fst).sum / n
  let my := (pts.map Prod.snd).sum / n
  let ssxm := (pts.map fun p => (p.1 - mx) * (p.1 - mx)).sum / n
  let ssxym := (pts.map fun p => (p.1 - mx) * (p.2 - my)).sum / n
  let ssym := (pts.map fun p => (p.2 - my) * (p.2 - my)).sum / n
  let r0 := ssxym / Real.sqrt (ssxm * ssym)
  let r := if ssxm = 0 ∨ ssym = 0 then 0 else if 1 < r0 then 1 else if r0 < -1 then -1 else r0
  match pts with
  | [_] => .error .unmodelled
  | [p, q] => .ok (slope, icpt, .fin r, .fin (if p.2 = q.2 then 1 else 0), .fin 0)
  | _ =>
    let df := pts.length - 2
    let t := r * Real.sqrt (df / ((1 - r + 1e-20) * (1 + r + 1e-20)))
    .ok (slope, icpt, .fin r, .fin (prob t df), .fin (Real.sqrt ((1 - r ^ 2) * ssym / ssxm / df)))

/-- humidity.py:123-130 `calculate_dewpoint_regression(return_stats=True)` -/
def dewpointRegressionStats (prob : ℝ → Nat → ℝ) (obs : Frame ℝ) : Py (XF ℝ × XF ℝ × XF ℝ × XF ℝ × XF ℝ) := do
  let temp ← obs.item "temp"
  let hum ← obs.item "hum"
  let td ← dewpointTemperature temp.values hum.values
  let tdew := Series.resampleD meanSkip (temp.index.zip td)
  let tmin := temp.groupbyDate minSkip
  let rows := (tdew.map fun r => ((tmin.at? r.1).getD .nan, r.2)).filter fun r => !r.1.isNan && !r.2.isNan
  let pts ← rows.mapM finPoint
  linregressStats prob pts

end

end Melodist
