import Verif.Spec.CascadeIndep

/-!
# Averages over many days
-/

namespace Melodist.Spec

/-- a quantity `f` of the 24 hourly cells of day `d` of the result of a cascade run; 0 if the run fails -/
def dayQuantity (f : List (XF ℝ) → ℝ) (run : Py (CascadeOut ℝ)) (d : Int) : ℝ := match run with
  | .ok r => f (dayCells r.series d)
  | .error _ => 0

/-- `w 0, …, w (N - 1)` are days of a record of `n` days, in this order, with a dry or missing day between any two of them -/
structure Separated (v : Nat → XF ℝ) (n : Nat) (w : Nat → Nat) (N : Nat) : Prop where
  inside : ∀ k < N, w k < n
  dry : ∀ k, k + 1 < N → ∃ c, w k < c ∧ c < w (k + 1) ∧ (v c = .nan ∨ v c = .fin 0)

end Melodist.Spec
