import Verif.Spec.Rounding
import Verif.Spec.Basic
import Mathlib.Data.Real.Basic

/-!
# The comparisons made by the tests of the package (C145)

`/repo/tests` compares daily values with the daily totals or means of the hourly values by `np.allclose(a, b, atol=1e-3, equal_nan=True)`, on one data set.
-/

namespace Melodist.Spec

/-- `np.isclose(a, b, atol=1e-3, equal_nan=True)` in the arithmetic `fl`: |a - b| ≤ atol + rtol·|b| with rtol = 1e-5; a missing value matches a missing value -/
def IsClose (fl : ℝ → ℝ) : XF ℝ → XF ℝ → Prop
  | .fin a, .fin b => |fl (a - b)| ≤ fl (fl 1e-3 + fl (fl 1e-5 * |b|))
  | .nan, .nan => True
  | .pinf, .pinf => True
  | .ninf, .ninf => True
  | _, _ => False

/-- a cell without infinities -/
def NumberOrMissing (c : XF ℝ) : Prop := c = .nan ∨ ∃ x, c = .fin x

/-- `sum` adds the numbers among up to 288 cells, skipping missing ones, with a relative and an absolute error of at most 1e-12 (whatever the order of the additions, compensated or not); the
total of no numbers is 0 up to that error. -/
def AddsDay (sum : List (XF ℝ) → XF ℝ) : Prop :=
  ∀ cells, cells.length ≤ 288 → (∀ c ∈ cells, NumberOrMissing c) → ((numbers cells).map fun x => |x|).sum ≤ 10 ^ 300 →
    ∃ t, sum cells = .fin t ∧ |t - (numbers cells).sum| ≤ 1e-12 * (1 + ((numbers cells).map fun x => |x|).sum)

/-- `mean` averages the numbers among up to 288 cells, skipping missing ones, with a relative and an absolute error of at most 1e-12; the mean of no numbers is missing. -/
def AveragesDay (mean : List (XF ℝ) → XF ℝ) : Prop :=
  ∀ cells, cells.length ≤ 288 → (∀ c ∈ cells, NumberOrMissing c) → ((numbers cells).map fun x => |x|).sum ≤ 10 ^ 300 →
    (numbers cells = [] → mean cells = .nan) ∧
    (numbers cells ≠ [] → ∃ t, mean cells = .fin t ∧
      |t - (numbers cells).sum / (numbers cells).length| ≤ 1e-12 * (1 + ((numbers cells).map fun x => |x|).sum / (numbers cells).length))

end Melodist.Spec
