import Verif.Model.Humidity
import Verif.Model.DailyRound

/-!
# Humidity statistics in rounded arithmetic
-/

namespace Melodist

section
variable {K : Type} [Field K] [LinearOrder K]

/-- humidity.py:133-141 `calculate_month_hour_precip_mean` with every division rounded by `fl`; `sum` is the sum of a group as pandas computes it.  Otherwise as
`monthHourPrecipMean`. -/
def monthHourPrecipMeanR (fl : K → K) (sum : List (XF K) → XF K) (obs : Frame K) : Py (CatMeans K) := do
  let precip ← obs.attr "precip"
  let daily := precip.resampleD sum
  let hum ← obs.attr "hum"
  let keyed : List ((Int × Int × Bool) × XF K) := hum.map fun r =>
    ((monthOf r.1, hourOf r.1, decide (XF.lt (.fin 0) ((daily.at? (midnight (dayOf r.1))).getD .nan))), r.2)
  .ok ((keyed.map Prod.fst).dedup.map fun k => (k, meanR fl sum ((keyed.filter fun r => r.1 == k).map Prod.snd)))

end

end Melodist
