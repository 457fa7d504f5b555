import Mathlib.Analysis.SpecialFunctions.Trigonometric.Basic

/-!
# Vocabulary for the position of the sun
-/

namespace Melodist

noncomputable section

namespace Spec
/-- solar declination in radians on a day of the year (formula of Bourges, 1985) -/
def solarDeclination (doy : Int) : ℝ :=
  let B := (360 / 365.25) * ((doy : ℝ) - 79.346) * (Real.pi / 180)
  (0.3723 + 23.2567 * Real.sin B - 0.758 * Real.cos B + 0.1149 * Real.sin (2 * B) + 0.3656 * Real.cos (2 * B)
    - 0.1712 * Real.sin (3 * B) + 0.0201 * Real.cos (3 * B)) * (Real.pi / 180)

/-- sine of the solar altitude at latitude `lat` (degrees), declination `δ`, hour angle `ω` (radians, 0 at noon) -/
def sinAltitude (lat δ ω : ℝ) : ℝ :=
  Real.sin (lat * (Real.pi / 180)) * Real.sin δ + Real.cos (lat * (Real.pi / 180)) * Real.cos δ * Real.cos ω

end Spec

end

end Melodist
