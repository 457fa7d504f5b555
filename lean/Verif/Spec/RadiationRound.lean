import Verif.Model.RadiationRound
import Verif.Props.RoundingD
import Verif.Spec.PackageTests

/-!
# Vocabulary for the radiation models in double precision (C146)
-/

namespace Melodist.Spec

/-- double precision without overflow: 53 binary digits; `np.exp` and `**` have a relative error of at most 2⁻⁵² and 2⁻⁵⁰, or an error of at most 2⁻¹⁰⁰⁰ (underflow), and are not negative for
positive arguments -/
structure RadDouble (F : RadMath) : Prop where
  base : DoubleMath F.toFloatMath
  exp_err : ∀ x, |F.exp x - Real.exp x| ≤ 1 / 2 ^ 52 * Real.exp x + 1 / 2 ^ 1000
  exp_nonneg : ∀ x, 0 ≤ F.exp x
  pow_err : ∀ x p, 0 < x → |F.pow x p - x ^ p| ≤ 1 / 2 ^ 50 * x ^ p + 1 / 2 ^ 1000
  pow_nonneg : ∀ x p, 0 < x → 0 ≤ F.pow x p

/-- the mean of the numbers among some cells in rounded arithmetic: additions in any order, then a division -/
def SkippingMean (fl : ℝ → ℝ) (mean : List (XF ℝ) → XF ℝ) : Prop :=
  ∀ cells : List (XF ℝ), (∀ c ∈ cells, NumberOrMissing c) → numbers cells ≠ [] →
    ∃ t, AddsTo fl (numbers cells) t ∧ mean cells = .fin (fl (t / (numbers cells).length))

/-- the temperature range of a day of a record of `n` days: its maximum minus the mean of its minimum and of the next day's (the last day takes its own twice), if these are there -/
noncomputable def dayRange (n : Nat) (tmin tmax : Nat → XF ℝ) (i : Nat) : Option ℝ :=
  match tmin i, tmax i, (if i + 1 < n then tmin (i + 1) else tmin i) with
  | .fin x, .fin y, .fin z => some (y - (x + z) / 2)
  | _, _, _ => none

/-- the mean of the ranges in the calendar month of day `i` (of all years); day 0 is `d0` -/
noncomputable def monthMeanRange (d0 : Int) (n : Nat) (tmin tmax : Nat → XF ℝ) (i : Nat) : ℝ :=
  let l := ((List.range n).filter fun j => monthOf (at00 (d0 + (j : Nat))) == monthOf (at00 (d0 + (i : Nat)))).filterMap (dayRange n tmin tmax)
  l.sum / l.length

end Melodist.Spec
