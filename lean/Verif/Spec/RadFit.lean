import Mathlib.Data.Real.Basic
import Verif.Base.Pandas
import Verif.Spec.Basic

/-!
# Vocabulary for the fits of radiation models
-/

namespace Melodist.Spec

/-- the daily series with value `v d` on each of the days `ds` -/
def onDays {V : Type} (ds : List Int) (v : Int → V) : List (Time × V) := ds.map fun d => (at00 d, v d)

/-- the temperature range of Bristow and Campbell on day `d` of a record with data on the days `ds`: maximum minus the mean of this day's and
the next day's minimum; on the last day of the record maximum minus minimum; none if the next day is absent -/
noncomputable def gapRange (ds : List Int) (tmin tmax : Int → ℝ) (d : Int) : Option ℝ :=
  if ds.getLast? = some d then some (tmax d - tmin d)
  else if d + 1 ∈ ds then some (tmax d - (tmin d + tmin (d + 1)) / 2) else none

/-- the four series `a`, `b`, `c`, `d` all hold a number exactly on the days `ds` (among the labels of `a`), namely `x`, `y`, `z`, `u` -/
structure Sample (a b c d : Series (XF ℝ)) (ds : List Int) (x y z u : Int → ℝ) : Prop where
  index : (Series.index a).Pairwise (· < ·)
  sorted : ds.Pairwise (· < ·)
  values : ∀ e ∈ ds, Series.at? a (at00 e) = some (.fin (x e)) ∧ Series.at? b (at00 e) = some (.fin (y e)) ∧
    Series.at? c (at00 e) = some (.fin (z e)) ∧ Series.at? d (at00 e) = some (.fin (u e))
  others : ∀ t ∈ Series.index a, t ∉ ds.map at00 →
    ∃ s ∈ [a, b, c, d], Series.at? s t = none ∨ Series.at? s t = some .nan

/-- the sum of squared differences between a model's values and the data -/
noncomputable def sqErr (f y : List ℝ) : ℝ := ((f.zip y).map fun r => (r.1 - r.2) ^ 2).sum

/-- `curve_fit` returns parameters with the smallest sum of squared errors, for every model whose values are all numbers -/
def LeastSquares (curveFit : (ℝ → ℝ → List (XF ℝ)) → List (XF ℝ) → ℝ × ℝ → Py (XF ℝ × XF ℝ)) : Prop :=
  ∀ (f : ℝ → ℝ → List (XF ℝ)) (g : ℝ → ℝ → List ℝ) (y : List ℝ) (p0 : ℝ × ℝ) (p : XF ℝ × XF ℝ), (∀ a b, f a b = (g a b).map .fin) →
    curveFit f (y.map .fin) p0 = .ok p → ∃ a b, p = (.fin a, .fin b) ∧ ∀ a' b', sqErr (g a b) y ≤ sqErr (g a' b') y

/-- `minimize` returns a pair of numbers at which the function has its smallest value -/
def Minimizes (minimize : (ℝ → ℝ → Py (XF ℝ)) → ℝ × ℝ → Py (XF ℝ × XF ℝ)) : Prop :=
  ∀ f p0 p, minimize f p0 = .ok p → ∃ a c v, p = (.fin a, .fin c) ∧ f a c = .ok (.fin v) ∧ ∀ a' c' v', f a' c' = .ok (.fin v') → v ≤ v'

end Melodist.Spec
