import Verif.Spec.DataIO
import Verif.Model.DwdMeta

/-!
# Vocabulary for the statements about DWD metadata files
-/

namespace Melodist.Spec

open Text DataIO

/-- a metadata file: the line of column names, then one line per row -/
def metaFile (names : List String) (rows : List (List Text)) : Text :=
  textOf (joined ';' (names.map String.toList) :: rows.map (joined ';'))

/-- a name in the file stands for `name`: blanks around it do not count -/
def Named (name : String) (n : String) : Prop := strip n.toList = name.toList

/-- no separator, line end or quotation mark -/
def PlainText (t : Text) : Prop := ∀ c ∈ t, c ≠ ';' ∧ c ≠ '\n' ∧ c ≠ '\r' ∧ c ≠ '"'

/-- a readable metadata file: plain column names that differ also without the blanks around them; rows that are not blank and not longer than the header
(they may be shorter), of plain fields, none of which is a text that pandas takes for a missing or truth value -/
structure MetaText (names : List String) (rows : List (List Text)) : Prop where
  names_plain : ∀ n ∈ names, PlainText n.toList
  names_nonblank : ∃ n ∈ names, ∃ c ∈ n.toList, isBlank c = false
  names_differ : (names.map fun n => strip n.toList).Nodup
  rows_short : ∀ r ∈ rows, r ≠ [] ∧ r.length ≤ names.length
  rows_nonblank : ∀ r ∈ rows, ∃ c ∈ joined ';' r, isBlank c = false
  rows_plain : ∀ r ∈ rows, ∀ t ∈ r, PlainText t ∧ t ∉ specialTexts

/-- the field number `j` of a row; empty if the row is too short -/
def fieldAt (r : List Text) (j : Nat) : Text := r.getD j []

/-- a field that is empty or a number, possibly with blanks in front -/
def IsNumberField (t : Text) : Prop := t = [] ∨ ∃ (k : Nat) (x : Numeral), t = padded k x.text

/-- what is to be read from field `j` of row `r` in a table with the given rows: nothing from an empty field; a number if all fields of the column are
numbers or empty; the text of the field if some field of the column contains a letter that occurs in no number -/
def Reads {K : Type} [Field K] (rows : List (List Text)) (j : Nat) (r : List Text) (v : MetaCell K) : Prop :=
  (fieldAt r j = [] ∧ v = .missing) ∨
  (∃ (k : Nat) (x : Numeral), fieldAt r j = padded k x.text ∧ (∀ r' ∈ rows, IsNumberField (fieldAt r' j)) ∧ v = .number (.fin x.value)) ∨
  (fieldAt r j ≠ [] ∧ (∃ r' ∈ rows, ∃ c ∈ fieldAt r' j, textLetter c = true) ∧ v = .text (fieldAt r j))

/-- a column whose fields are all numbers or empty, or one with a letter that occurs in no number -/
def PureColumn (rows : List (List Text)) (j : Nat) : Prop :=
  (∀ r ∈ rows, IsNumberField (fieldAt r j)) ∨ ∃ r ∈ rows, ∃ c ∈ fieldAt r j, textLetter c = true

end Melodist.Spec
