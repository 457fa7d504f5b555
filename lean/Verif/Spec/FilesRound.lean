import Verif.Model.FilesRound
import Verif.Spec.Smet
import Verif.Spec.DataIO
import Mathlib.Data.Real.Basic

/-!
# Vocabulary for reading files in floating-point arithmetic (C147)
-/

namespace Melodist.Spec

/-- How texts are made doubles: the result is a double; for texts of at most 15 characters it has a relative error of at most 2⁻⁵⁰, and integers up to 10¹⁵ are exact.  (pandas reads such a text as an
integer and divides it by a power of ten.) -/
structure ReadsDecimals (fl : ℝ → ℝ) (parse : Text → ℝ → ℝ) : Prop where
  double : ∀ t x, fl (parse t x) = parse t x
  err : ∀ t x, t.length ≤ 15 → |parse t x - x| ≤ |x| / 2 ^ 50
  whole : ∀ (t : Text) (n : ℤ), t.length ≤ 15 → |n| ≤ 10 ^ 15 → parse t n = n

/-- a value written to a SMET file and read back: the number of the file (two decimals) up to a relative error of 2⁻⁵⁰; a number that is printed as -999.00 is missing -/
def ShownR : XF ℝ → XF ℝ → Prop
  | .nan, d => d = .nan
  | .pinf, d => d = .pinf
  | .ninf, d => d = .ninf
  | .fin x, d => ∃ y, IsRounded2 x y ∧ if y = -999 then d = .nan else ∃ w, d = .fin w ∧ |w - y| ≤ |y| / 2 ^ 50

/-- a cell written to a file with a given code for missing values, and read back -/
def CellBackR (nodata : XF ℝ) : XF ℝ → XF ℝ → Prop
  | .nan, d => ShownR nodata d
  | c, d => ShownR c d

/-- a number of a size that is printed with at most 15 characters -/
def Printable : XF ℝ → Prop
  | .fin x => |x| ≤ 10 ^ 9
  | _ => True

/-- a printable number that is not printed as `-0.00` -/
def NoMinusZero : XF ℝ → Prop
  | .fin x => 0 ≤ x ∨ x < -(1 / 200)
  | _ => True

/-- a cell of a column that is converted: missing, or a number within `ε` of the converted one -/
def CellNear (conv ε : ℝ → ℝ) (o : Option Numeral) (c : XF ℝ) : Prop :=
  match o with
  | none => c = .nan
  | some x => ∃ w, c = .fin w ∧ |w - conv x.value| ≤ ε x.value

/-- a code of a KNMI file: an integer of at most nine digits, or nothing -/
def KnmiCode : Option Numeral → Prop
  | none => True
  | some x => x.frac = [] ∧ x.whole < 10 ^ 9

/-- a cell of a DWD file: `-999` is missing; other numbers are read up to a relative error of 2⁻⁵⁰, temperatures are 273.15 more up to 2⁻⁵⁰ times (the absolute value plus 274) -/
def DwdNear (kelvin : Bool) (o : Option Numeral) (c : XF ℝ) : Prop :=
  match o with
  | none => c = .nan
  | some x => if (x.value : ℝ) = -999 then c = .nan else
      ∃ w, c = .fin w ∧ if kelvin then |w - (x.value + 273.15)| ≤ (|x.value| + 274) / 2 ^ 49 else |w - x.value| ≤ |x.value| / 2 ^ 50

end Melodist.Spec
