import Verif.Base.Num
import Verif.Base.Err
import Verif.Base.Time

/-!
# The pandas operations used by MELODIST

A `pd.Series` with a `DatetimeIndex` is a list of (timestamp, value) rows.  These definitions are the model of the
*library*, not of /repo; each one names the pandas call it stands for.
-/

set_option linter.unusedSectionVars false

namespace Melodist

/-- `pd.Series` with a `DatetimeIndex` -/
abbrev Series (V : Type) := List (Time × V)

namespace Series
variable {V : Type}

/-- `s.index` -/
def index (s : Series V) : List Time := s.map Prod.fst
/-- `s.values` -/
def values (s : Series V) : List V := s.map Prod.snd

/-- the value stored at a label (first occurrence) -/
def at? (s : Series V) (t : Time) : Option V := (s.find? fun r => r.1 == t).map Prod.snd

/-- last row whose label is `≤ t`, for a monotonic index -/
def asof? (s : Series V) (t : Time) : Option (Time × V) := (s.filter fun r => decide (r.1 ≤ t)).getLast?

/-- `pd.Series(index=idx, data=data)`: ValueError when the lengths differ -/
def make (idx : List Time) (data : List V) : Py (Series V) :=
  if idx.length = data.length then .ok (idx.zip data) else .error .valueError

variable {K : Type}

/-- `s.reindex(idx)`: ValueError on duplicate labels, NaN for labels that are absent. -/
def reindex (s : Series (XF K)) (idx : List Time) : Py (Series (XF K)) :=
  if s.index.Nodup then .ok (idx.map fun t => (t, (s.at? t).getD .nan)) else .error .valueError

/-- number of target labels `t'` with `src < t' ≤ t`, i.e. how many inexact matches of `src` there are up to `t` -/
def inexactCount (idx : List Time) (src t : Time) : Nat :=
  (idx.filter fun t' => decide (src < t') && decide (t' ≤ t)).length

/-- `s.reindex(idx, method='ffill', limit=limit)`: value of the last label `≤ t` (a NaN stored there is copied, not
skipped); with a limit, at most `limit` consecutive target labels are inexact matches of one source label.
ValueError when the source index is not monotonic increasing and unique.  (Without limit pandas accepts a decreasing index as well, and then takes the value of the *next* label; this is
outside the scope of the model.) -/
def reindexFfill (s : Series (XF K)) (idx : List Time) (limit : Option Nat := none) : Py (Series (XF K)) :=
  if s.index.Pairwise (· < ·) then
    .ok (idx.map fun t => (t,
      match s.asof? t with
      | none => .nan
      | some (t0, v) =>
        match limit with
        | none => v
        | some l => if inexactCount idx t0 t ≤ l then v else .nan))
  else .error (if limit = none ∧ s.index.Pairwise (· > ·) then .unmodelled else .valueError)

/-- `s.shift(k)`: rows move by `k` positions, the index stays, NaN is shifted in. -/
def shiftRows (s : Series (XF K)) (k : Int) : Series (XF K) :=
  s.zipIdx.map fun (r, i) =>
    let j : Int := (i : Int) - k
    (r.1, if 0 ≤ j then (s.values[j.toNat]?).getD .nan else .nan)

/-- `s.shift(k, 'D')`: the index moves by `k` days. -/
def shiftDays (s : Series V) (k : Int) : Series V := s.map fun r => (r.1 + k * DAY, r.2)

end Series

section cells
variable {K : Type}

/-- `x.ffill(limit=limit)` on the cells of a series: a NaN is replaced by the last non-NaN value if at most `limit`
NaNs have been seen since then. -/
def ffillAux (limit : Nat) : Option (XF K) → Nat → List (XF K) → List (XF K)
  | _, _, [] => []
  | last, cnt, x :: xs =>
    if x.isNan then
      match last with
      | none => .nan :: ffillAux limit none cnt xs
      | some v => (if cnt < limit then v else .nan) :: ffillAux limit (some v) (cnt + 1) xs
    else x :: ffillAux limit (some x) 0 xs

/-- see `ffillAux` -/
def ffill (limit : Nat) (l : List (XF K)) : List (XF K) := ffillAux limit none 0 l

/-- put the transformed values of each group back into the rows of that group, in row order -/
def scatter (key : Time → Int) : (Int → List (XF K)) → List Time → List (XF K)
  | _, [] => []
  | streams, t :: ts =>
    ((streams (key t)).head?.getD .nan) ::
      scatter key (fun k => if k = key t then (streams k).tail else streams k) ts

/-- `s.groupby(key).transform(f)` for a length-preserving `f` -/
def groupTransform (key : Time → Int) (f : List (XF K) → List (XF K)) (s : Series (XF K)) : Series (XF K) :=
  s.index.zip (scatter key (fun k => f ((s.filter fun r => key r.1 == k).map Prod.snd)) s.index)

variable [Field K] [LinearOrder K]

/-- sum of cells (numpy `np.sum`, NaN propagates) -/
def sumCells : List (XF K) → XF K
  | [] => .fin 0
  | x :: xs => x + sumCells xs

/-- `.sum()` of a pandas object: NaN is skipped, an empty sum is 0 -/
def sumSkip (l : List (XF K)) : XF K := sumCells (l.filter fun x => !x.isNan)

/-- number of non-NaN cells -/
def countValid (l : List (XF K)) : Nat := (l.filter fun x => !x.isNan).length

/-- `.mean()` of a pandas object: NaN is skipped, NaN when there is nothing to average -/
def meanSkip (l : List (XF K)) : XF K :=
  if countValid l = 0 then .nan else sumSkip l / .fin (countValid l : K)

/-- `.min()` of a pandas object: NaN is skipped, NaN when empty -/
def minSkip : List (XF K) → XF K
  | [] => .nan
  | x :: xs =>
    if x.isNan then minSkip xs
    else if (minSkip xs).isNan then x
    else if XF.lt (minSkip xs) x then minSkip xs else x

/-- `.max()` of a pandas object: NaN is skipped, NaN when empty -/
def maxSkip : List (XF K) → XF K
  | [] => .nan
  | x :: xs =>
    if x.isNan then maxSkip xs
    else if (maxSkip xs).isNan then x
    else if XF.lt x (maxSkip xs) then maxSkip xs else x

end cells

namespace Series
variable {V : Type}

/-- values of the rows that fall on a given day -/
def onDay (s : Series V) (d : Int) : List V := (s.filter fun r => dayOf r.1 == d).map Prod.snd

/-- all days from the first to the last day of the index, inclusive -/
def daySpan (idx : List Time) : List Int :=
  match (idx.map dayOf).min?, (idx.map dayOf).max? with
  | some a, some b => (List.range (b - a + 1).toNat).map fun (k : Nat) => a + (k : Int)
  | _, _ => []

/-- `s.resample('D').agg()`: one row per calendar day between first and last row, also for days without rows -/
def resampleD {W : Type} (agg : List V → W) (s : Series V) : Series W :=
  (daySpan s.index).map fun d => (midnight d, agg (s.onDay d))

/-- `s.groupby(s.index.date).agg()`: one row per calendar day that has rows -/
def groupbyDate {W : Type} (agg : List V → W) (s : Series V) : Series W :=
  ((daySpan s.index).filter fun d => s.any fun r => dayOf r.1 == d).map fun d => (midnight d, agg (s.onDay d))

end Series

end Melodist
