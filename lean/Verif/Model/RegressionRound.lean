import Verif.Model.StatsRound
import Verif.Model.DewpointRound

/-!
# The dew point regression in rounded arithmetic
-/

namespace Melodist

section
variable {K : Type} [Field K] [LinearOrder K]

/-- util.py:137-157 `linregress` with every operation rounded by `fl`.  scipy.stats.linregress computes the two means, the deviations from them and their products, adds the products (`np.cov`, a
multiplication by the rounded 1 / n), and divides; `sum` is the sum of numbers as numpy computes it.  Otherwise as `linregress`. -/
def linregressR (fl : K → K) (sum : List K → K) (pts : List (K × K)) : Py (XF K × XF K) :=
  let n : K := pts.length
  let mx := fl (sum (pts.map Prod.fst) / n)
  let my := fl (sum (pts.map Prod.snd) / n)
  let ssx := fl (sum (pts.map fun p => fl (fl (p.1 - mx) * fl (p.1 - mx))) * fl (1 / n))
  let ssxy := fl (sum (pts.map fun p => fl (fl (p.1 - mx) * fl (p.2 - my))) * fl (1 / n))
  if pts = [] then .error .valueError
  else if 1 < pts.length ∧ ∀ p ∈ pts, ∀ q ∈ pts, p.1 = q.1 then .error .valueError
  else
    let slope : XF K := (XF.fin ssxy / XF.fin ssx).rnd fl
    .ok (slope, (XF.fin my - (slope * XF.fin mx).rnd fl).rnd fl)

end

noncomputable section

/-- humidity.py:123-130 `calculate_dewpoint_regression` (with `return_stats=False`) with every operation rounded: `F` and `log` for the dew points, `groupSum` for daily means, `sum` for the regression -/
def dewpointRegressionR (F : FloatHum) (log : ℝ → ℝ) (groupSum : List (XF ℝ) → XF ℝ) (sum : List ℝ → ℝ) (obs : Frame ℝ) : Py (XF ℝ × XF ℝ) := do
  let temp ← obs.item "temp"
  let hum ← obs.item "hum"
  let td ← dewpointTemperatureR F log temp.values hum.values
  let tdew := Series.resampleD (meanR F.fl groupSum) (temp.index.zip td)
  let tmin := temp.groupbyDate minSkip
  let rows := (tdew.map fun r => ((tmin.at? r.1).getD .nan, r.2)).filter fun r => !r.1.isNan && !r.2.isNan
  let pts ← rows.mapM finPoint
  linregressR F.fl sum pts

end

end Melodist
