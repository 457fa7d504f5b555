import Verif.Model.Aggregate
import Verif.Model.CascadeRound

/-!
# Fitting of cascade statistics in rounded arithmetic

The functions of `Model/Aggregate.lean` once more, with every arithmetic operation on numbers followed by a rounding `fl`.  (`Props/StatsRounding.lean` shows that they
are the functions of `Model/Aggregate.lean` if `fl` is the identity.)  Counts and lengths are exact: they are whole numbers.  `np.percentile` interpolates in an
order that depends on the version of numpy; it is an arbitrary function `perc` here.
-/

set_option linter.unusedSectionVars false

namespace Melodist

section
variable {K : Type} [Field K] [LinearOrder K]

/-- precipitation.py:438-448: rows `i-1` and `i` for odd `i` are added -/
def pairSumsR (fl : K → K) : Series (XF K) → Series (XF K)
  | a :: b :: rest => (b.1, (a.2 + b.2).rnd fl) :: pairSumsR fl rest
  | _ => []

/-- precipitation.py:549-552: the class of a weight; the literals of lines 463-464 are rounded -/
def weightClassR (fl : K → K) (w : K) : Option (Fin 7) :=
  (List.finRange 7).find? fun k => decide (fl (wlower k) < w ∧ w ≤ fl (wupper k))

/-- precipitation.py:503-552, one box.  The consistency test of lines 530-547 compares the rounded sum `r1 + r2` with the box value, which is that same
rounded sum: it does not fail. -/
def aggStepR (fl : K → K) (meanvol : K) (a b : XF K) (ty : Option BoxType) (c : AggCounts) : AggCounts :=
  let x := (a + b).rnd fl
  if XF.lt (.fin 0) x then
    let ba : Fin 2 := if XF.lt (.fin meanvol) x then 1 else 0
    let t := aggCol ty
    let c := { c with nb := c.nb.bump ba t }
    let c := if XF.lt (.fin 0) a ∧ XF.feq b (.fin 0) then { c with p10 := c.p10.bump ba t } else c
    let c := if XF.feq a (.fin 0) ∧ XF.lt (.fin 0) b then { c with p01 := c.p01.bump ba t } else c
    match a, b with
    | .fin r1, .fin r2 =>
      if 0 < r1 ∧ 0 < r2 then
        let c := { c with pxx := c.pxx.bump ba t, nbxx := c.nbxx.bump ba t }
        match weightClassR fl (fl (r1 / fl (r1 + r2))) with
        | some k => { c with wxx := fun k' => if k' = k then (c.wxx k').bump ba t else c.wxx k' }
        | none => c
      else c
    | _, _ => c
  else c

/-- the whole third step -/
def aggCountR (fl : K → K) (meanvol : K) : List (XF K × XF K) → List (Option BoxType) → AggCounts → AggCounts
  | (a, b) :: ps, ty :: tys, c => aggCountR fl meanvol ps tys (aggStepR fl meanvol a b ty c)
  | _, _, c => c

/-- precipitation.py:555-563 `counts / totals` -/
def ratioMatR (fl : K → K) (m d : Mat24 Nat) : Mat24 (XF K) := fun b t => (ratioMat m d b t).rnd fl

/-- cascade.py:52-109 `fill_with_sample_data`: the literals as floating-point numbers -/
def CascStats.fillSampleR (fl : K → K) (s : CascStats K) : CascStats K :=
  { s with
    p01 := fun b t => .fin (fl (sampleP01 b t))
    p10 := fun b t => .fin (fl (sampleP10 b t))
    pxx := fun b t => .fin (fl (samplePxx b t))
    wxx := fun k b t => .fin (fl (sampleWxx k b t)) }

/-- precipitation.py:592-594 `wxx += …`, one cell after the other -/
def sumCellsR (fl : K → K) (l : List (XF K)) : XF K := l.foldl (fun a c => (a + c).rnd fl) (.fin 0)

/-- precipitation.py:555-602: percentages, default values -/
def finishStatsR (fl : K → K) (s : CascStats K) (c : AggCounts) : CascStats K :=
  let s := { s with p01 := ratioMatR fl c.p01 c.nb, p10 := ratioMatR fl c.p10 c.nb, pxx := ratioMatR fl c.pxx c.nb,
                    wxx := fun k => ratioMatR fl (c.wxx k) c.nbxx }
  let s := if anyNan s.p01 || anyNan s.p10 || anyNan s.pxx then s.fillSampleR fl else s
  if (List.finRange 7).any fun k => anyNan (s.wxx k) then
    let s := { s with wxx := fun k b t => if (s.wxx k b t).isNan then .fin (fl (1 / 7)) else s.wxx k b t }
    let sums : Mat24 (XF K) := fun b t => sumCellsR fl ((List.finRange 7).map fun k => s.wxx k b t)
    if (List.finRange 2).any fun b => (List.finRange 4).any fun t => ! decide (XF.feq (sums b t) (.fin 0)) then s else s.fillSampleR fl
  else s

/-- precipitation.py:416-604 `aggregate_precipitation` -/
def aggregateR (fl : K → K) (perc : List K → K → Py K) (data : Series (XF K)) (percentile : K) : Py (CascStats K × Series (XF K)) := do
  if data.any fun r => ! decide r.2.NanOrFin then throw .unmodelled
  let vdn := pairSumsR fl data
  let meanvol ← perc (wetValues vdn.values) percentile
  let types ← aggBoxTypes none vdn.values
  let counts := aggCountR fl meanvol (valuePairs data.values) types {}
  let s : CascStats K := { CascStats.init with percentile := percentile, threshold := [.fin meanvol] }
  .ok (finishStatsR fl s counts, vdn)

/-- cascade.py:111-116 `a + b` -/
def CascStats.addR (fl : K → K) (a b : CascStats K) : CascStats K :=
  { a with
    p01 := fun i j => (a.p01 i j + b.p01 i j).rnd fl
    p10 := fun i j => (a.p10 i j + b.p10 i j).rnd fl
    pxx := fun i j => (a.pxx i j + b.pxx i j).rnd fl
    wxx := fun k i j => (a.wxx k i j + b.wxx k i j).rnd fl }

/-- cascade.py:118-122 `a * f` -/
def CascStats.scaleR (fl : K → K) (a : CascStats K) (f : K) : CascStats K :=
  { a with
    p01 := fun i j => (a.p01 i j * .fin f).rnd fl
    p10 := fun i j => (a.p10 i j * .fin f).rnd fl
    pxx := fun i j => (a.pxx i j * .fin f).rnd fl
    wxx := fun k i j => (a.wxx k i j * .fin f).rnd fl }

/-- the loop of precipitation.py:678-687: `k` levels still to do -/
def levelStatsLoopR (fl : K → K) (perc : List K → K → Py K) (percentile : K) :
    Nat → Series (XF K) → CascStats K → Nat → Py (List (CascStats K) × CascStats K × Nat)
  | 0, _, acc, count => .ok ([], acc, count)
  | k + 1, vdn, acc, count => do
    let (s, vdn) ← aggregateR fl perc vdn percentile
    let (rest, acc, count) ← levelStatsLoopR fl perc percentile k vdn (acc.addR fl (s.scaleR fl (vdn.length : K))) (count + vdn.length)
    .ok (s :: rest, acc, count)

/-- statistics of one season: precipitation.py:665-698 for the subset `vdn` -/
def seasonStatsR (fl : K → K) (perc : List K → K → Py K) (vdn : Series (XF K)) (levels : Nat) (avgStats : Bool) (percentile : K) :
    Py (CascStats K ⊕ List (CascStats K)) := do
  let (l, acc, count) ← levelStatsLoopR fl perc percentile levels vdn { CascStats.init with percentile := percentile } 0
  if count = 0 then throw .zeroDivisionError
  let avg := acc.scaleR fl (fl (1 / (count : K)))
  let avg := { avg with threshold := l.map fun s => s.threshold.headD .nan }
  .ok (if avgStats then .inl avg else .inr l)

/-- The loop over the seasons, precipitation.py:655-702 -/
def buildLoopR (fl : K → K) (perc : List K → K → Py K) (levels : Nat) (avgStats : Bool) (percentile : K) :
    Series (XF K) → List (List Int) → Series (XF K) × Py (List (CascStats K ⊕ List (CascStats K)))
  | obs, [] => (obs, .ok [])
  | obs, ms :: rest =>
    match seasonalSubset obs ms with
    | .error e => (obs, .error e)
    | .ok vdn =>
      let obs := fillna0 obs
      match seasonStatsR fl perc vdn levels avgStats percentile with
      | .error e => (obs, .error e)
      | .ok st =>
        let (obs, r) := buildLoopR fl perc levels avgStats percentile obs rest
        (obs, r.map (st :: ·))

/-- precipitation.py:631-702 `build_casc` -/
def buildCascR (fl : K → K) (perc : List K → K → Py K) (obs : Series (XF K)) (hourly : Bool := true) (level : Nat := 9)
    (months : Option (List (List Int)) := none) (avgStats : Bool := true) (percentile : K := 50) :
    Series (XF K) × Py (List (CascStats K ⊕ List (CascStats K))) :=
  buildLoopR fl perc (if hourly then 5 else level) avgStats percentile obs (months.getD [[1, 2, 3, 4, 5, 6, 7, 8, 9, 10, 11, 12]])

end

end Melodist
