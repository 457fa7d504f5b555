import Verif.Spec.Basic
import Verif.Model.Radiation

/-!
# Vocabulary for radiation
-/

namespace Melodist.Spec

/-- the value on day `d` of the series with values `v 0, …, v (n-1)` on the `n` days from `d0` on, the last value being repeated afterwards; missing
before the first day -/
def lastValue {K : Type} (d0 : Int) (n : Nat) (v : Nat → XF K) (d : Int) : XF K :=
  if d < d0 then .nan else v (min (d - d0).toNat (n - 1))

/-- the parameters for a month are `a` and `b`: the two given numbers, or the entries for this month in the two given tables -/
def ParAt {K : Type} (par : ParPair K) (month : Int) (a b : XF K) : Prop :=
  match par with
  | .scalar a' b' => a' = a ∧ b' = b
  | .monthly ta tb => ta.find? (fun r => r.1 == month) = some (month, a) ∧ tb.find? (fun r => r.1 == month) = some (month, b)

/-- the minimum temperature used for the next day: that of day `i + 1`, on the last day its own -/
def nextMin {K : Type} (n : Nat) (tmin : Nat → XF K) (i : Nat) : XF K := if i + 1 < n then tmin (i + 1) else tmin i

/-- the temperature range of Bristow and Campbell: maximum minus the mean of this day's and the next day's minimum -/
noncomputable def bcRange (n : Nat) (tmin tmax : Nat → XF ℝ) (i : Nat) : XF ℝ := tmax i - (tmin i + nextMin n tmin i) / .fin 2

/-- the ranges of all days in the month of day `i` (of all years) -/
noncomputable def bcMonthRanges (d0 : Int) (n : Nat) (tmin tmax : Nat → XF ℝ) (i : Nat) : List (XF ℝ) :=
  ((List.range n).filter fun j => monthOf (at00 (d0 + (j : Nat))) == monthOf (at00 (d0 + (i : Nat)))).map fun j => bcRange n tmin tmax j

/-- solar time in hours: local time plus 1/15 h for each degree the site lies east of the meridian of its time zone -/
noncomputable def solarTime (lon tz : ℝ) (t : Time) : ℝ := hourOf t + (minuteOf t : ℝ) / 60 + (lon - 15 * tz) / 15

/-- declination of the sun in radians -/
noncomputable def decl (t : Time) : ℝ := 23.43697 * (Real.pi / 180) * Real.cos (2 * Real.pi * ((doyOf t : ℝ) - 173) / 365.25)

/-- sine of the height of the sun above the horizon: sin φ sin δ + cos φ cos δ cos H with the hour angle H = 15 degrees per hour from noon -/
noncomputable def sinHeight (lon lat tz : ℝ) (t : Time) : ℝ :=
  Real.sin (lat * (Real.pi / 180)) * Real.sin (decl t) +
    Real.cos (lat * (Real.pi / 180)) * Real.cos (decl t) * Real.cos ((solarTime lon tz t - 12) * (Real.pi / 12))

/-- ratio for the distance between earth and sun on the day of the year -/
noncomputable def orbitRatio (t : Time) : ℝ :=
  1.00011 + 0.034221 * Real.cos (2 * Real.pi * doyOf t / 365.25) + 0.00128 * Real.sin (2 * Real.pi * doyOf t / 365.25) +
    0.000719 * Real.cos (4 * Real.pi * doyOf t / 365.25) + 0.000077 * Real.sin (4 * Real.pi * doyOf t / 365.25)

end Melodist.Spec
