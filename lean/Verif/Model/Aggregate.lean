import Verif.Model.Cascade
import Mathlib.Algebra.Order.Floor.Ring
import Mathlib.Data.List.Sort

/-!
# Model of melodist/precipitation.py, aggregation part (lines 416-702)

A frame enters only through its index and its column `precip`.  Cells are NaN or finite; infinite cells give `unmodelled`.
-/

set_option linter.unusedSectionVars false

namespace Melodist

section
variable {K : Type} [Field K] [LinearOrder K] [FloorRing K]

/-- precipitation.py:438-448: rows `i-1` and `i` for odd `i` are added, the time stamp is that of row `i` -/
def pairSums : Series (XF K) → Series (XF K)
  | a :: b :: rest => (b.1, a.2 + b.2) :: pairSums rest
  | _ => []

/-- the pairs of values (`vec_data.precip.values[i-1]`, `vec_data.precip.values[i]`) for odd `i` -/
def valuePairs : List (XF K) → List (XF K × XF K)
  | a :: b :: rest => (a, b) :: valuePairs rest
  | _ => []

/-- the finite numbers greater than 0, `vdn.precip[vdn.precip > 0.0]` -/
def wetValues (l : List (XF K)) : List K :=
  l.filterMap fun
    | .fin x => if 0 < x then some x else none
    | _ => none

/-- `np.percentile(values, p)` (default linear interpolation; numpy >= 1.22: IndexError for an empty array) -/
def npPercentile (values : List K) (p : K) : Py K :=
  if p < 0 ∨ 100 < p then .error .valueError
  else
    let v := values.insertionSort (· ≤ ·)
    match v.length with
    | 0 => .error .indexError
    | n + 1 =>
      let virt : K := (n : K) * (p / 100)
      let lo : Nat := ⌊virt⌋.toNat
      let g : K := virt - ⌊virt⌋
      let a := v.getD lo 0
      let b := v.getD (min (lo + 1) n) 0
      .ok (a + (b - a) * g)

/-- The numpy arrays counted in precipitation.py:458-459, 500-553 -/
structure AggCounts where
  nb : Mat24 Nat := fun _ _ => 0
  nbxx : Mat24 Nat := fun _ _ => 0
  p01 : Mat24 Nat := fun _ _ => 0
  p10 : Mat24 Nat := fun _ _ => 0
  pxx : Mat24 Nat := fun _ _ => 0
  wxx : Fin 7 → Mat24 Nat := fun _ _ _ => 0

/-- `m[b, t] += 1` -/
def Mat24.bump (m : Mat24 Nat) (b : Fin 2) (t : Fin 4) : Mat24 Nat :=
  fun b' t' => if b' = b ∧ t' = t then m b' t' + 1 else m b' t'

/-- precipitation.py:476-497: box type of box `x` with neighbours `prev`, `next` (`none` at the ends); `none` is the initial value
`dry`, which a wet box keeps when a neighbour is NaN or negative -/
def aggBoxType (prev : Option (XF K)) (x : XF K) (next : Option (XF K)) : Py (Option BoxType) :=
  if XF.lt (.fin 0) x then
    match prev, next with
    | none, none => .error .indexError
    | none, some nx => .ok (some (if XF.lt (.fin 0) nx then .starting else .isolated))
    | some pv, none => .ok (some (if XF.lt (.fin 0) pv then .ending else .isolated))
    | some pv, some nx =>
      let v : Option BoxType := none
      let v := if XF.feq pv (.fin 0) ∧ XF.feq nx (.fin 0) then some .isolated else v
      let v := if XF.feq pv (.fin 0) ∧ XF.lt (.fin 0) nx then some .starting else v
      let v := if XF.lt (.fin 0) pv ∧ XF.lt (.fin 0) nx then some .enclosed else v
      let v := if XF.lt (.fin 0) pv ∧ XF.feq nx (.fin 0) then some .ending else v
      .ok v
  else .ok none

/-- all box types, precipitation.py:475-497 -/
def aggBoxTypes : Option (XF K) → List (XF K) → Py (List (Option BoxType))
  | _, [] => .ok []
  | prev, x :: xs => do
    let t ← aggBoxType prev x xs.head?
    let ts ← aggBoxTypes (some x) xs
    .ok (t :: ts)

/-- the column index `vbtype[j] - 1`; for `dry` = 0 it is -1, i.e. the last column -/
def aggCol : Option BoxType → Fin 4
  | none => 3
  | some t => t.col

/-- lower and upper histogram class bounds, precipitation.py:463-464 -/
def wlower : Fin 7 → K := ![0, 0.1429, 0.2857, 0.4286, 0.5714, 0.7143, 0.8571]
@[inherit_doc wlower] def wupper : Fin 7 → K := ![0.1429, 0.2857, 0.4286, 0.5714, 0.7143, 0.8571, 1.0]

/-- precipitation.py:549-552: the class of a weight -/
def weightClass (w : K) : Option (Fin 7) := (List.finRange 7).find? fun k => decide (wlower k < w ∧ w ≤ wupper k)

/-- precipitation.py:503-552, one box: `a`, `b` the two values, `ty` the box type.  (The consistency test of lines 530-547 compares
`r1 + r2` with the box value, which is that same sum; it can only fail through rounding and is left out.) -/
def aggStep (meanvol : K) (a b : XF K) (ty : Option BoxType) (c : AggCounts) : AggCounts :=
  let x := a + b
  if XF.lt (.fin 0) x then
    let ba : Fin 2 := if XF.lt (.fin meanvol) x then 1 else 0
    let t := aggCol ty
    let c := { c with nb := c.nb.bump ba t }
    let c := if XF.lt (.fin 0) a ∧ XF.feq b (.fin 0) then { c with p10 := c.p10.bump ba t } else c
    let c := if XF.feq a (.fin 0) ∧ XF.lt (.fin 0) b then { c with p01 := c.p01.bump ba t } else c
    match a, b with
    | .fin r1, .fin r2 =>
      if 0 < r1 ∧ 0 < r2 then
        let c := { c with pxx := c.pxx.bump ba t, nbxx := c.nbxx.bump ba t }
        match weightClass (r1 / (r1 + r2)) with
        | some k => { c with wxx := fun k' => if k' = k then (c.wxx k').bump ba t else c.wxx k' }
        | none => c
      else c
    | _, _ => c
  else c

/-- the whole third step -/
def aggCount (meanvol : K) : List (XF K × XF K) → List (Option BoxType) → AggCounts → AggCounts
  | (a, b) :: ps, ty :: tys, c => aggCount meanvol ps tys (aggStep meanvol a b ty c)
  | _, _, c => c

/-- `counts / totals` as floats (0/0 is NaN) -/
def ratioMat (m d : Mat24 Nat) : Mat24 (XF K) := fun b t => .fin (m b t : K) / .fin (d b t : K)

/-- `np.isnan(m).any()` -/
def anyNan (m : Mat24 (XF K)) : Bool := (List.finRange 2).any fun b => (List.finRange 4).any fun t => (m b t).isNan

/-- precipitation.py:555-602: percentages, default values -/
def finishStats (s : CascStats K) (c : AggCounts) : CascStats K :=
  let s := { s with p01 := ratioMat c.p01 c.nb, p10 := ratioMat c.p10 c.nb, pxx := ratioMat c.pxx c.nb,
                    wxx := fun k => ratioMat (c.wxx k) c.nbxx }
  let s := if anyNan s.p01 || anyNan s.p10 || anyNan s.pxx then s.fillSample else s
  if (List.finRange 7).any fun k => anyNan (s.wxx k) then
    let s := { s with wxx := fun k b t => if (s.wxx k b t).isNan then .fin (1 / 7) else s.wxx k b t }
    -- `wxx.any() > 1.001 or wxx.any() < 0.999` compares a truth value: it holds only when all sums are zero
    let sums : Mat24 (XF K) := fun b t => sumCells ((List.finRange 7).map fun k => s.wxx k b t)
    if (List.finRange 2).any fun b => (List.finRange 4).any fun t => ! decide (XF.feq (sums b t) (.fin 0)) then s else s.fillSample
  else s

/-- precipitation.py:416-604 `aggregate_precipitation` -/
def aggregatePrecipitation (data : Series (XF K)) (percentile : K := 50) : Py (CascStats K × Series (XF K)) := do
  if data.any fun r => ! decide r.2.NanOrFin then throw .unmodelled
  let vdn := pairSums data
  let meanvol ← npPercentile (wetValues vdn.values) percentile
  let types ← aggBoxTypes none vdn.values
  let counts := aggCount meanvol (valuePairs data.values) types {}
  let s : CascStats K := { CascStats.init with percentile := percentile, threshold := [.fin meanvol] }
  .ok (finishStats s counts, vdn)

end

section
variable {V : Type}

/-- the rows of one month -/
def monthRows (df : Series V) (m : Int) : Series V := df.filter fun r => monthOf r.1 == m

/-- precipitation.py:607-628 `seasonal_subset`; months 'all' is `[1, …, 12]`.  `sort_index` is modelled as a stable sort. -/
def seasonalSubset (df : Series V) (months : List Int) : Py (Series V) :=
  match months with
  | [] => .error .unboundLocalError
  | ms => .ok ((ms.flatMap (monthRows df)).insertionSort fun a b => a.1 ≤ b.1)

end

section
variable {K : Type} [Field K] [LinearOrder K] [FloorRing K]

/-- the loop of precipitation.py:678-687: `k` levels still to do.  Collects the level statistics and adds up the weighted ones. -/
def levelStatsLoop (percentile : K) : Nat → Series (XF K) → CascStats K → Nat → Py (List (CascStats K) × CascStats K × Nat)
  | 0, _, acc, count => .ok ([], acc, count)
  | k + 1, vdn, acc, count => do
    let (s, vdn) ← aggregatePrecipitation vdn percentile
    let (rest, acc, count) ← levelStatsLoop percentile k vdn (acc.add (s.scale (.fin (vdn.length : K)))) (count + vdn.length)
    .ok (s :: rest, acc, count)

/-- statistics of one season: precipitation.py:665-698 for the subset `vdn` -/
def seasonStats (vdn : Series (XF K)) (levels : Nat) (avgStats : Bool) (percentile : K) : Py (CascStats K ⊕ List (CascStats K)) := do
  let (l, acc, count) ← levelStatsLoop percentile levels vdn { CascStats.init with percentile := percentile } 0
  if count = 0 then throw .zeroDivisionError
  let avg := acc.scale (.fin (1 / (count : K)))
  let avg := { avg with threshold := l.map fun s => s.threshold.headD .nan }
  .ok (if avgStats then .inl avg else .inr l)

/-- `Series.fillna(0)` -/
def fillna0 (s : Series (XF K)) : Series (XF K) := s.map fun r => (r.1, if r.2.isNan then .fin 0 else r.2)

/-- The loop over the seasons, precipitation.py:655-702.  The first component is the caller's column `precip` afterwards (also when an
exception is raised). -/
def buildLoop (levels : Nat) (avgStats : Bool) (percentile : K) :
    Series (XF K) → List (List Int) → Series (XF K) × Py (List (CascStats K ⊕ List (CascStats K)))
  | obs, [] => (obs, .ok [])
  | obs, ms :: rest =>
    match seasonalSubset obs ms with
    | .error e => (obs, .error e)
    | .ok vdn =>
      let obs := fillna0 obs
      match seasonStats vdn levels avgStats percentile with
      | .error e => (obs, .error e)
      | .ok st =>
        let (obs, r) := buildLoop levels avgStats percentile obs rest
        (obs, r.map (st :: ·))

/-- precipitation.py:631-702 `build_casc` -/
def buildCasc (obs : Series (XF K)) (hourly : Bool := true) (level : Nat := 9) (months : Option (List (List Int)) := none)
    (avgStats : Bool := true) (percentile : K := 50) : Series (XF K) × Py (List (CascStats K ⊕ List (CascStats K))) :=
  buildLoop (if hourly then 5 else level) avgStats percentile obs (months.getD [[1, 2, 3, 4, 5, 6, 7, 8, 9, 10, 11, 12]])

end

end Melodist
