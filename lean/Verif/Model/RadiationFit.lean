import Verif.Model.StationStatistics

/-!
# Model of the parameter fits of melodist/radiation.py

scipy's optimisers are arguments: `minimize f x0` stands for `scipy.optimize.minimize(f, x0).x`, `curveFit f y p0` for the parameters returned by
`scipy.optimize.curve_fit(f, x, y, p0)`, where `f a b` are the values of the model at all points for parameters `a`, `b`.
-/

set_option linter.unusedSectionVars false

namespace Melodist
open StatsObj

noncomputable section

/-- `np.abs` on a float cell -/
def XF.abs : XF ℝ → XF ℝ
  | .nan => .nan
  | .fin x => .fin |x|
  | _ => .pinf

/-- the first column of the frame a model is fitted to: `df.tmin` or `df.ssd` (radiation.py:275, 334) -/
def fitCol1 (df : List FitRow) : Series (XF ℝ) := df.map fun r => (r.1, r.2.1)
/-- the second column: `df.tmax` or `df.day_length` -/
def fitCol2 (df : List FitRow) : Series (XF ℝ) := df.map fun r => (r.1, r.2.2.1)
/-- the third column: `df.pot` -/
def fitCol3 (df : List FitRow) : Series (XF ℝ) := df.map fun r => (r.1, r.2.2.2.1)
/-- the fourth column: `df.obs` -/
def fitCol4 (df : List FitRow) : Series (XF ℝ) := df.map fun r => (r.1, r.2.2.2.2)

/-- radiation.py:272-273 `bc_absbias`: the absolute value of the mean difference between the Bristow-Campbell estimates and the observations;
`np.mean` of a Series skips missing values.  The columns of `df` are tmin, tmax, pot, obs. -/
def bcAbsBias (df : List FitRow) (a c : ℝ) : Py (XF ℝ) := do
  let sim ← bristowCampbell (fitCol1 df) (fitCol2 df) (fitCol3 df) (.scalar (.fin a) (.fin c))
  let diff ← Series.align (· - ·) sim (fitCol4 df)
  .ok (XF.abs (meanSkip diff.values))

/-- radiation.py:251-280 `fit_bristow_campbell_params` -/
def fitBristowCampbell (minimize : (ℝ → ℝ → Py (XF ℝ)) → ℝ × ℝ → Py (XF ℝ × XF ℝ)) (tmin tmax pot obs : Series (XF ℝ)) : Py (XF ℝ × XF ℝ) :=
  minimize (bcAbsBias (fitFrame tmin tmax pot obs)) (0.75, 2.4)

/-- radiation.py:338-339 `angstroem_opt`: `angstroem` on plain arrays, at the points (ssd, day_length, pot) of `df` -/
def angstroemOpt (df : List FitRow) (a b : ℝ) : List (XF ℝ) := df.map fun r => (.fin a + .fin b * r.2.1 / r.2.2.1) * r.2.2.2.1

/-- radiation.py:314-344 `fit_angstroem_params` -/
def fitAngstroem (curveFit : (ℝ → ℝ → List (XF ℝ)) → List (XF ℝ) → ℝ × ℝ → Py (XF ℝ × XF ℝ)) (ssd dayLength pot obs : Series (XF ℝ)) :
    Py (XF ℝ × XF ℝ) :=
  let df := fitFrame ssd dayLength pot obs
  curveFit (angstroemOpt df) (fitCol4 df).values (0.25, 0.75)

/-- the fit as used by `calc_radiation_stats` (stationstatistics.py:184-189), which passes the columns of the rows of some months -/
def bcFitOf (minimize : (ℝ → ℝ → Py (XF ℝ)) → ℝ × ℝ → Py (XF ℝ × XF ℝ)) (df : List FitRow) : Py (XF ℝ × XF ℝ) :=
  fitBristowCampbell minimize (fitCol1 df) (fitCol2 df) (fitCol3 df) (fitCol4 df)

/-- the fit as used by `calc_radiation_stats` (stationstatistics.py:163-168).  The code passes the four series of some months; the sample of
`fit_angstroem_params` then consists of the rows where all four have values (`fitFrame` in `fitRadiation`), and taking the sample of its columns
again does not change it. -/
def angFitOf (curveFit : (ℝ → ℝ → List (XF ℝ)) → List (XF ℝ) → ℝ × ℝ → Py (XF ℝ × XF ℝ)) (df : List FitRow) : Py (XF ℝ × XF ℝ) :=
  fitAngstroem curveFit (fitCol1 df) (fitCol2 df) (fitCol3 df) (fitCol4 df)

end

end Melodist
