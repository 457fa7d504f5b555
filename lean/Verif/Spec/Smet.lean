import Verif.Base.Text
import Mathlib.Algebra.Ring.Parity

/-!
# Vocabulary for the statements about SMET files
-/

namespace Melodist.Spec

section
variable {K : Type} [Field K] [LinearOrder K]

/-- `y` is `x` rounded to two decimals: a multiple of 1/100, at most 1/200 away, the even multiple in case of a tie -/
def IsRounded2 (x y : K) : Prop := ∃ n : ℤ, y = n / 100 ∧ |x - y| ≤ 1 / 200 ∧ (|x - y| = 1 / 200 → Even n)

/-- a value written to a file and read back: rounded to two decimals; a number that rounds to -999 is taken as missing -/
def Shown : XF K → XF K → Prop
  | .nan, d => d = .nan
  | .pinf, d => d = .pinf
  | .ninf, d => d = .ninf
  | .fin x, d => ∃ y, IsRounded2 x y ∧ d = if y = -999 then .nan else .fin y

/-- a cell written to a file with a given code for missing values, and read back -/
def CellBack (nodata : XF K) : XF K → XF K → Prop
  | .nan, d => Shown nodata d
  | c, d => Shown c d

end

/-- text that can be a key or a value of a SMET header: no `=`, no line end, no quotation mark, no white space at either end -/
def Clean (s : String) : Prop :=
  (∀ c ∈ s.toList, c ≠ '=' ∧ c ≠ '\n' ∧ c ≠ '\r' ∧ c ≠ '"') ∧ (∀ c, s.toList.head? = some c → Text.isSpace c = false) ∧
    ∀ c, s.toList.getLast? = some c → Text.isSpace c = false

/-- a column name consisting of one word -/
def OneWord (s : String) : Prop := s ≠ "" ∧ ∀ c ∈ s.toList, Text.isSpace c = false ∧ c ≠ '"' ∧ c ≠ '='

instance (s : String) : Decidable (OneWord s) := inferInstanceAs (Decidable (_ ∧ _))

/-- column names that are exchanged -/
def swapMinMax (s : String) : String := if s = "tmin" then "tmax" else if s = "tmax" then "tmin" else s

end Melodist.Spec
