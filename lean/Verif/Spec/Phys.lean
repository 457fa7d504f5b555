import Mathlib.Analysis.SpecialFunctions.Log.Basic

/-!
# Vocabulary for humidity
-/

namespace Melodist.Spec

noncomputable section

/-- saturation vapour pressure (hPa) at temperature `T` in K after Sonntag (1990): Magnus formula over water from 0 °C on, over ice
below -/
def satPressure (T : ℝ) : ℝ :=
  if 273.15 ≤ T then 6.112 * Real.exp (17.62 * (T - 273.15) / (243.12 + (T - 273.15)))
  else 6.112 * Real.exp (22.46 * (T - 273.15) / (272.62 + (T - 273.15)))

/-- relative humidity in % for dew point `td` and temperature `T`, limited to [0, 100] -/
def relHum (td T : ℝ) : ℝ := min (max (100 * satPressure td / satPressure T) 0) 100

/-- dew point (K) for temperature `T` (K) and relative humidity `h` (%): the Magnus formula of `satPressure` solved for the temperature at which
the vapour pressure h/100 · satPressure T is saturated (over water for T ≥ 0 °C, over ice below) -/
def dewPoint (T h : ℝ) : ℝ :=
  let y := Real.log (satPressure T * h / 100 / 6.112)
  if 273.15 ≤ T then 273.15 + 243.12 * y / (17.62 - y) else 273.15 + 272.62 * y / (22.46 - y)

end

end Melodist.Spec
