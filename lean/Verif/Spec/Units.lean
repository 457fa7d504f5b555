import Verif.Model.Util

/-!
# Change of units
-/

namespace Melodist.Spec

variable {K : Type} [Field K]

/-- a value in other units, `x ↦ s * x + c`; NaN stays NaN, infinities stay infinite (`s > 0`) -/
def inUnits (s c : K) : XF K → XF K
  | .fin x => .fin (s * x + c)
  | y => y

/-- a series in other units -/
def seriesInUnits (s c : K) (x : Series (XF K)) : Series (XF K) := x.map fun r => (r.1, inUnits s c r.2)

/-- frame `g` holds column `name` of frame `f` in other units -/
def ColumnInUnits (s c : K) (f g : Frame K) (name : String) : Prop := g.col? name = (f.col? name).map (seriesInUnits s c)

/-- a frame with every column in its own new units, `u name` = (factor, offset) -/
def frameInUnits (u : String → K × K) (f : Frame K) : Frame K :=
  ⟨f.index, f.cols.map fun col => (col.1, col.2.map (inUnits (u col.1).1 (u col.1).2))⟩

/-- a table of mean courses in other units -/
def courseInUnits (s c : K) (m : MeanCourse K) : MeanCourse K := ⟨m.months, m.hours, fun month hour => inUnits s c (m.val month hour)⟩

/-- `z` is `y` in units with factor `s`, up to a cut of values below 0.01 in the respective units: `z = s * y`, or one of the two is 0
and the other one is at least 0.01 but is below 0.01 in the units of the first -/
def UpToCut [LinearOrder K] (s : K) (y z : XF K) : Prop :=
  z = inUnits s 0 y ∨ (y = .fin 0 ∧ ∃ x, z = .fin x ∧ 0.01 ≤ x ∧ x < s * 0.01) ∨ (z = .fin 0 ∧ ∃ x, y = .fin x ∧ 0.01 ≤ x ∧ s * x < 0.01)

end Melodist.Spec
