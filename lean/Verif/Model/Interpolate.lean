import Verif.Model.Util

/-!
# pandas' `Series.interpolate` with its options, and `Station.interpolate` with all arguments

station.py:403-437 passes `method`, `limit`, `limit_direction` and further keywords on to `pandas.Series.interpolate`.  The model follows
`interpolate_2d_with_fill`, `_interpolate_1d` and `_interp_limit` of pandas/core/missing.py (1.x) set by set, and `np.interp`, for the methods 'linear'
(cells are equally spaced) and 'time' (cells are placed by their timestamps) and the keyword `limit_area`.  Other methods: `Model/InterpolateMore.lean`; the other
keywords (`axis`, `inplace`, `downcast`) are not modelled.  A set of positions is a function to `Bool`.
-/

namespace Melodist

/-- the argument `limit_direction` -/
inductive LimitDirection | forward | backward | both
  deriving DecidableEq, Repr
/-- the argument `limit_area` (None: everywhere) -/
inductive LimitArea | inside | outside
  deriving DecidableEq, Repr
/-- the argument `method` -/
inductive InterpMethod | linear | time
  deriving DecidableEq, Repr

/-- missing.py `interpolate_2d_with_fill`: the strings are compared in lower case; others raise ValueError -/
def LimitDirection.parse (s : String) : Py LimitDirection :=
  if s.toLower = "forward" then .ok .forward else if s.toLower = "backward" then .ok .backward else if s.toLower = "both" then .ok .both
  else .error .valueError
/-- as `LimitDirection.parse` -/
def LimitArea.parse : Option String → Py (Option LimitArea)
  | none => .ok none
  | some s => if s.toLower = "inside" then .ok (some .inside) else if s.toLower = "outside" then .ok (some .outside) else .error .valueError
/-- algorithms.py `validate_limit` (an integer below 1 raises ValueError) -/
def validateLimit : Option Int → Py (Option Nat)
  | none => .ok none
  | some l => if l < 1 then .error .valueError else .ok (some l.toNat)

/-- missing.py `_interp_limit.inner`: the positions that end `limit + 1` missing cells in a row, and the missing cells at the beginning
(up to position `limit`) -/
def limitInner (invalid : List Bool) (limit : Nat) (i : Nat) : Bool :=
  let l := min limit invalid.length
  (decide (l ≤ i) && (List.range (l + 1)).all fun j => invalid.getD (i - j) false) ||
  (decide (i ≤ l) && (List.range (i + 1)).all fun j => invalid.getD j false)

/-- missing.py `_interp_limit` -/
def interpLimit (invalid : List Bool) (fw bw : Option Nat) (i : Nat) : Bool :=
  let f := match fw with
    | none => false
    | some l => if l = 0 then invalid.getD i false else limitInner invalid l i
  match bw with
  | none => false  -- intersection with the empty set
  | some l =>
    if l = 0 then f
    else
      let b := limitInner invalid.reverse l (invalid.length - 1 - i)
      if fw = some 0 then b else f && b

/-- number of missing cells before the first / after the last valid one (all cells if there is none) -/
def leadingInvalid (invalid : List Bool) : Nat := (invalid.takeWhile id).length
/-- see `leadingInvalid` -/
def trailingInvalid (invalid : List Bool) : Nat := (invalid.reverse.takeWhile id).length

/-- missing.py `_interpolate_1d`: the set `preserve_nans` -/
def preserveNans (invalid : List Bool) (limit : Option Nat) (direction : LimitDirection) (area : Option LimitArea) (i : Nat) : Bool :=
  let start := decide (i < leadingInvalid invalid)
  let stop := decide (invalid.length - trailingInvalid invalid ≤ i)
  let mid := invalid.getD i false && !start && !stop
  let byDirection := match direction with
    | .forward => start || interpLimit invalid limit (some 0) i
    | .backward => stop || interpLimit invalid (some 0) limit i
    | .both => interpLimit invalid limit limit i
  match area with
  | none => byDirection
  | some .inside => byDirection || start || stop
  | some .outside => byDirection || mid

section
variable {K : Type} [Field K] [LinearOrder K]

/-- `np.interp(x, xp, fp)` for increasing `xp` (not called with an empty list) -/
def npInterp (x : K) : List (K × XF K) → XF K
  | [] => .nan
  | [p] => p.2
  | p :: q :: rest =>
    if x < p.1 then p.2
    else if x < q.1 then (q.2 - p.2) / .fin (q.1 - p.1) * .fin (x - p.1) + p.2
    else npInterp x (q :: rest)

/-- missing.py `_interpolate_1d`; `xs` = positions and values of the cells.  If no cell or every cell is valid, nothing is done. -/
def interpolate1d (limit : Option Nat) (direction : LimitDirection) (area : Option LimitArea) (xs : List (K × XF K)) : List (XF K) :=
  let invalid := xs.map fun p => p.2.isNan
  let valid := xs.filter fun p => !p.2.isNan
  if valid = [] ∨ valid.length = xs.length then xs.map Prod.snd
  else (List.range xs.length).zipWith (fun i p => if p.2.isNan then (if preserveNans invalid limit direction area i then .nan else npInterp p.1 valid) else p.2) xs

/-- `Series.interpolate(method, limit, limit_direction, limit_area)`: for 'linear' the index is replaced by 0, 1, 2, …; for 'time' the timestamps count -/
def seriesInterpolate (s : Series (XF K)) (method : InterpMethod) (limit : Option Int) (direction : String) (area : Option String) : Py (Series (XF K)) := do
  let direction ← LimitDirection.parse direction
  let area ← LimitArea.parse area
  let limit ← validateLimit limit
  let pos : List K := match method with
    | .linear => (List.range s.length).map fun i : Nat => (i : K)
    | .time => s.index.map fun t : Int => (t : K)
  .ok (s.index.zip (interpolate1d limit direction area (pos.zip s.values)))

/-- station.py:403-437 `Station.interpolate` with all options of the model -/
def stationInterpolateWith (api : PandasApi) (daily : Frame K) (columnHours : List (String × Int)) (method : InterpMethod := .linear)
    (limit : Option Int := some 24) (direction : String := "both") (area : Option String := none) : Py (Series (XF K)) := do
  let data ← prepareInterpolationData api daily columnHours
  seriesInterpolate data method limit direction area

end

end Melodist
