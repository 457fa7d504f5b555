import Verif.Model.Util
import Verif.Model.CascadeRound5

/-!
# daily_from_hourly in rounded arithmetic
-/

namespace Melodist

variable {K : Type} [Field K] [LinearOrder K]

/-- `.mean()` of a group as pandas computes it: the sum `sum` of the group, divided by the number of values, rounded by `fl`; NaN when there is nothing to average -/
def meanR (fl : K → K) (sum : List (XF K) → XF K) (l : List (XF K)) : XF K :=
  if countValid l = 0 then .nan else (sum l / .fin (countValid l : K)).rnd fl

/-- util.py:374-414 `daily_from_hourly` with every division rounded by `fl`; `sum` is the sum of a group as pandas computes it (minima and maxima are exact).  Otherwise as
`dailyFromHourly`. -/
def dailyFromHourlyR (fl : K → K) (sum : List (XF K) → XF K) (df : Frame K) : Frame K :=
  let mean := meanR fl sum
  let d : Frame K := ⟨[], []⟩
  let d := match df.col? "temp" with
    | some s => ((d.setCol "temp" (s.resampleD mean)).setCol "tmin" (s.groupbyDate minSkip)).setCol "tmax" (s.groupbyDate maxSkip)
    | none => d
  let d := match df.col? "precip" with
    | some s => d.setCol "precip" (s.resampleD sum)
    | none => d
  let d := match df.col? "glob" with
    | some s => d.setCol "glob" (s.resampleD mean)
    | none => d
  let d := match df.col? "hum" with
    | some s => ((d.setCol "hum" (s.resampleD mean)).setCol "hum_min" (s.groupbyDate minSkip)).setCol "hum_max" (s.groupbyDate maxSkip)
    | none => d
  let d := match df.col? "wind" with
    | some s => d.setCol "wind" (s.resampleD mean)
    | none => d
  match df.col? "ssd" with
    | some s => d.setCol "ssd" ((s.resampleD sum).map fun r => (r.1, (r.2 / .fin 60).rnd fl))
    | none => d

/-- the sum of a group by additions one after the other (older versions of pandas); missing values are skipped -/
def groupSum (fl : K → K) (l : List (XF K)) : XF K := .fin (seqSum fl (l.filterMap fun | .fin x => some x | _ => none))

/-- the sum of a group with compensation of the rounding errors (newer versions of pandas); missing values are skipped -/
def groupSumC (fl : K → K) (l : List (XF K)) : XF K := .fin (kahanSum fl (l.filterMap fun | .fin x => some x | _ => none))

end Melodist
