import Verif.Spec.PackageTests

/-!
# Sums of the values of a day in double precision (C149)
-/

namespace Melodist.Spec

/-- the sum of the absolute values -/
def absSum (l : List ℝ) : ℝ := (l.map fun x => |x|).sum

/-- `sum` adds the numbers among up to a million cells, skipping missing ones; `N` numbers are added with an error of at most (N + 7) 2⁻⁵³ of the sum of their absolute values -/
def SumsDay (sum : List (XF ℝ) → XF ℝ) : Prop :=
  ∀ cells, cells.length ≤ 1000000 → (∀ c ∈ cells, NumberOrMissing c) →
    ∃ t, sum cells = .fin t ∧ |t - (numbers cells).sum| ≤ ((numbers cells).length + 7) / 2 ^ 53 * absSum (numbers cells)

/-- the cell is the mean of the numbers up to (N + 9) 2⁻⁵³ of the mean of their absolute values; it is missing if there are none -/
def MeanNear (l : List ℝ) : XF ℝ → Prop
  | .fin m => l ≠ [] ∧ |m - l.sum / l.length| ≤ (l.length + 9) / 2 ^ 53 * (absSum l / l.length)
  | .nan => l = []
  | _ => False

/-- the cell is the sum of the numbers, divided by `c`, up to (N + 9) 2⁻⁵³ of the sum of their absolute values, divided by `c` -/
def TotalNear (c : ℝ) (l : List ℝ) : XF ℝ → Prop
  | .fin t => |t - l.sum / c| ≤ (l.length + 9) / 2 ^ 53 * (absSum l / c)
  | _ => False

end Melodist.Spec
