import Verif.Spec.CascadeIndep

/-!
# Spec vocabulary for C140: dry days and wet days
-/

namespace Melodist.Spec

/-- a day without precipitation: no amount, or missing -/
def Dry (x : XF ℝ) : Prop := x = .nan ∨ x = .fin 0

/-- number of rows with a positive amount -/
def wetDays {K : Type} [Field K] [LinearOrder K] (daily : Series (XF K)) : Nat := daily.countP fun r => match r.2 with
  | .fin x => decide (0 < x)
  | _ => false

end Melodist.Spec
