/-!
# Python exceptions as values, and the pandas API level
-/

namespace Melodist

/-- The exceptions raised by the modelled code.  `returnedNone` stands for a bare `return` in the middle of a
function (precipitation.py:275); it is not an exception but is kept apart from a normal result. -/
inductive PyErr where
  | valueError
  | typeError
  | assertionError
  | attributeError
  | indexError
  | keyError
  | unboundLocalError
  | zeroDivisionError
  | returnedNone
  | recursionError
  /-- input outside the scope of the model (documented at each use) -/
  | unmodelled
deriving DecidableEq, Repr

/-- Result of a Python call: a value or an exception. -/
abbrev Py (α : Type) := Except PyErr α

/-- Which attributes, removed from pandas over time, are available.
The package declares no pandas bound (setup.cfg:35-38); its tests need pandas >= 2.2 (alias 'ME'). -/
structure PandasApi where
  /-- `Index.to_datetime` (used in util.py:32), removed in pandas 0.25/1.0 -/
  indexToDatetime : Bool
  /-- `pd.datetime` (util.py:38, precipitation.py:730, 760, data_io.py:324), removed in pandas 2.0 -/
  pdDatetime : Bool
  /-- `Series.iteritems` (precipitation.py:392), removed in pandas 2.0 -/
  seriesIteritems : Bool
  /-- `Series.append` (util.py:366, temperature.py:222), removed in pandas 2.0 -/
  seriesAppend : Bool
  /-- `Timedelta.delta` (util.py:279), removed in pandas 2.0 -/
  timedeltaDelta : Bool
  /-- `del index.name` works (data_io.py:96), impossible since `Index.name` is a property -/
  indexNameDel : Bool
deriving DecidableEq, Repr

/-- pandas >= 2: none of the removed attributes exists. -/
def PandasApi.modern : PandasApi := ⟨false, false, false, false, false, false⟩

/-- a (hypothetical) pandas on which every attribute used by the code exists -/
def PandasApi.legacy : PandasApi := ⟨true, true, true, true, true, true⟩

/-- use of an attribute: AttributeError when it does not exist -/
def needs (flag : Bool) : Py Unit := if flag then .ok () else .error .attributeError

/-- the computation succeeds with a result satisfying `P` (for concrete examples) -/
def okAnd {α : Type} (x : Py α) (P : α → Bool) : Bool :=
  match x with
  | .ok a => P a
  | .error _ => false

theorem okAnd_iff {α : Type} {x : Py α} {P : α → Bool} : okAnd x P = true ↔ ∃ a, x = .ok a ∧ P a = true := by
  cases x with
  | error e => simp [okAnd]
  | ok a => simp [okAnd]

end Melodist
