import Verif.Model.Interpolate

/-!
# `Station.interpolate` with the other methods of pandas

station.py:403-437 names 'cubic' in its docstring.  `pandas.Series.interpolate` (pandas 1.1 … 1.5) knows the methods 'index' and 'values' (np.interp at the values of the index),
'pad'/'ffill' and 'backfill'/'bfill' (core/missing.py `interpolate_2d`), and 'nearest', 'zero', 'slinear', 'quadratic', 'cubic' and 'polynomial', which call
`scipy.interpolate.interp1d(…, fill_value=nan, bounds_error=False)` (core/missing.py `_interpolate_scipy_wrapper`).  'nearest', 'zero' and 'slinear' are written out; for the
splines of higher degree the model takes an arbitrary function of the valid cells.  The methods that call other functions of scipy ('spline', 'krogh', 'pchip', 'akima', …) are not
modelled; neither is an invalid `limit_area` for 'pad' and 'backfill'.
-/

namespace Melodist

section
variable {K : Type} [Field K] [LinearOrder K]

/-- the methods -/
inductive MoreMethod (K : Type)
  /-- 'index', 'values' -/
  | index
  /-- 'pad', 'ffill' -/
  | pad
  /-- 'backfill', 'bfill' -/
  | backfill
  /-- a kind of `interp1d`: number of cells it needs, and its value between the first and the last of the given cells -/
  | interp1d (minval : Nat) (inside : List (K × XF K) → K → XF K)

/-- `interp1d(kind='nearest')`: `searchsorted` (side='left') in the midpoints -/
def scipyNearest : List (K × XF K) → K → XF K
  | [], _ => .nan
  | [p], _ => p.2
  | p :: q :: rest, x => if x ≤ p.1 / 2 + q.1 / 2 then p.2 else scipyNearest (q :: rest) x

/-- `interp1d(kind='zero')`: spline of degree 0, constant on `[x_i, x_{i+1})` -/
def scipyZero : List (K × XF K) → K → XF K
  | [], _ => .nan
  | [p], _ => p.2
  | p :: q :: rest, x => if x < q.1 then p.2 else scipyZero (q :: rest) x

/-- `interp1d(kind='slinear')`: spline of degree 1 -/
def scipySlinear : List (K × XF K) → K → XF K
  | [], _ => .nan
  | [p], _ => p.2
  | p :: q :: rest, x => if x < q.1 then p.2 + (q.2 - p.2) * .fin (x - p.1) / .fin (q.1 - p.1) else scipySlinear (q :: rest) x

/-- the method 'nearest' -/
def MoreMethod.nearest : MoreMethod K := .interp1d 1 scipyNearest
/-- the method 'zero' -/
def MoreMethod.zero : MoreMethod K := .interp1d 1 scipyZero
/-- the method 'slinear' -/
def MoreMethod.slinear : MoreMethod K := .interp1d 2 scipySlinear

/-- `interp1d(x, y, kind, fill_value=nan, bounds_error=False)(x_new)` -/
def interp1dAt (inside : List (K × XF K) → K → XF K) (valid : List (K × XF K)) (x : K) : XF K :=
  match valid.head?, valid.getLast? with
  | some first, some last => if x < first.1 ∨ last.1 < x then .nan else inside valid x
  | _, _ => .nan

/-- missing.py `_interpolate_1d` with a method of scipy; `interp1d` raises ValueError if there are fewer than `minval` cells -/
def interpolate1dScipy (minval : Nat) (inside : List (K × XF K) → K → XF K) (limit : Option Nat) (direction : LimitDirection) (area : Option LimitArea)
    (xs : List (K × XF K)) : Py (List (XF K)) :=
  let invalid := xs.map fun p => p.2.isNan
  let valid := xs.filter fun p => !p.2.isNan
  if valid = [] ∨ valid.length = xs.length then .ok (xs.map Prod.snd)
  else if valid.length < minval then .error .valueError
  else .ok ((List.range xs.length).zipWith
    (fun i p => if p.2.isNan then (if preserveNans invalid limit direction area i then .nan else interp1dAt inside valid p.1) else p.2) xs)

/-- algos.pyx `pad_inplace`: `val` is the last valid value, `count` the number of cells filled since -/
def padAux (limit : Option Nat) : XF K → Nat → List (XF K) → List (XF K)
  | _, _, [] => []
  | val, count, x :: xs =>
    if x.isNan then
      if (match limit with | none => false | some l => decide (l ≤ count)) then x :: padAux limit val count xs
      else val :: padAux limit val (count + 1) xs
    else x :: padAux limit x 0 xs

/-- missing.py `_interpolate_with_limit_area`: with 'inside' the missing cells outside the valid ones are made missing again, with 'outside' those inside -/
def areaMask (area : Option LimitArea) (ys zs : List (XF K)) : List (XF K) :=
  let invalid := ys.map XF.isNan
  match area with
  | none => zs
  | some a => (List.range zs.length).zipWith (fun i z =>
      let outer := decide (i < leadingInvalid invalid) || decide (invalid.length - trailingInvalid invalid ≤ i)
      if invalid.getD i false && (match a with | .inside => outer | .outside => !outer) then .nan else z) zs

/-- missing.py `interpolate_2d` with 'pad' -/
def padCells (limit : Option Nat) (area : Option LimitArea) (ys : List (XF K)) : List (XF K) := areaMask area ys (padAux limit .nan 0 ys)

/-- missing.py `interpolate_2d` with 'backfill': the same from the other end -/
def backfillCells (limit : Option Nat) (area : Option LimitArea) (ys : List (XF K)) : List (XF K) := areaMask area ys (padAux limit .nan 0 ys.reverse).reverse

/-- `Series.interpolate` with one of these methods.  generic.py: 'pad' and 'backfill' need the matching direction. -/
def seriesInterpolateMore (s : Series (XF K)) (method : MoreMethod K) (limit : Option Int) (direction : String) (area : Option LimitArea) : Py (Series (XF K)) :=
  let pos : List K := s.index.map fun t : Int => (t : K)
  match method with
  | .index => do
    let direction ← LimitDirection.parse direction
    let limit ← validateLimit limit
    .ok (s.index.zip (interpolate1d limit direction area (pos.zip s.values)))
  | .interp1d minval inside => do
    let direction ← LimitDirection.parse direction
    let limit ← validateLimit limit
    let out ← interpolate1dScipy minval inside limit direction area (pos.zip s.values)
    .ok (s.index.zip out)
  | .pad => do
    if direction ≠ "forward" then .error .valueError
    else
      let limit ← validateLimit limit
      .ok (s.index.zip (padCells limit area s.values))
  | .backfill => do
    if direction ≠ "backward" then .error .valueError
    else
      let limit ← validateLimit limit
      .ok (s.index.zip (backfillCells limit area s.values))

/-- station.py:403-437 `Station.interpolate` with these methods -/
def stationInterpolateMore (api : PandasApi) (daily : Frame K) (columnHours : List (String × Int)) (method : MoreMethod K)
    (limit : Option Int := some 24) (direction : String := "both") (area : Option LimitArea := none) : Py (Series (XF K)) := do
  let data ← prepareInterpolationData api daily columnHours
  seriesInterpolateMore data method limit direction area

end

end Melodist
