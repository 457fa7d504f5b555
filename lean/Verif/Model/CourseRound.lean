import Verif.Model.Util
import Verif.Model.CascadeRound

/-!
# The mean daily course in rounded arithmetic
-/

namespace Melodist

variable {K : Type} [Field K] [LinearOrder K]

/-- util.py:417-430 `calculate_mean_daily_course_by_month` with every subtraction and division rounded by `fl`; `mean` is the arithmetic mean of a
group as pandas computes it.  Otherwise as `meanDailyCourseByMonth`. -/
def meanDailyCourseByMonthR (fl : K → K) (mean : List (XF K) → XF K) (s : Series (XF K)) (normalize : Bool := false) : MeanCourse K :=
  let months := ((List.range 12).map fun (k : Nat) => (k : Int) + 1).filter fun m => s.any fun r => monthOf r.1 == m
  let hours := ((List.range 24).map fun (k : Nat) => (k : Int)).filter fun h => s.any fun r => hourOf r.1 == h
  let raw : MeanCourse K := {
    months := months
    hours := hours
    val := fun m h => mean ((s.filter fun r => monthOf r.1 == m && hourOf r.1 == h).map Prod.snd) }
  if normalize then
    { raw with val := fun m h =>
        ((raw.val m h - minSkip (raw.column m)).rnd fl / (maxSkip (raw.column m) - minSkip (raw.column m)).rnd fl).rnd fl }
  else raw

end Melodist
