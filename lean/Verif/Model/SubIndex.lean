import Verif.Model.Precip

/-!
# Model of `fmin_index` (melodist/precipitation.py:740-764)
-/

set_option linter.unusedSectionVars false

namespace Melodist

/-- precipitation.py:740-764 `fmin_index`.  `aliasL` tells if `date_range` knows the frequency alias 'L' for milliseconds (removed in pandas 3);
without it ValueError is raised, as for an empty index. -/
def fminIndex (api : PandasApi) (aliasL : Bool) (idx : List Time) (fillGaps : Bool := false) : Py (List Time) :=
  match idx.min?, idx.max? with
  | some lo, some hi =>
    if !aliasL then .error .valueError
    else
      let index := dateRange lo (replaceHMS hi 23 59 59) (300000 * 1000)
      if !fillGaps && decide (index.length > idx.length * 288) then do
        let kept := index.filter fun t => (idx.map dayOf).contains (dayOf t)
        if kept ≠ [] then needs api.pdDatetime
        .ok (kept.map fun t => dayOf t * DAY + hourOf t * HOUR + minuteOf t * MINUTE + secondOf t * SECOND)
      else .ok index
  | _, _ => .error .valueError

end Melodist
