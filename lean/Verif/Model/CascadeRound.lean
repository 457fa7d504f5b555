import Verif.Model.Precip

/-!
# Precipitation disaggregation in rounded arithmetic

The functions of `Model/Precip.lean` for hourly output once more, with every arithmetic operation on numbers followed by a rounding `fl`.  (`Props/Rounding.lean` shows that they are
the functions of `Model/Precip.lean` if `fl` is the identity.)  Rounded are the products, sums, differences and quotients, and the literals that
need not be floating-point numbers.  Copies, comparisons and the numbers drawn are exact.  The 5-minute output is in
`Model/CascadeRound5.lean`.
-/

set_option linter.unusedSectionVars false

namespace Melodist

variable {K : Type} [Field K] [LinearOrder K]

/-- rounding of the number in a cell -/
def XF.rnd (fl : K → K) : XF K → XF K
  | .fin x => .fin (fl x)
  | c => c

/-- precipitation.py:264 `wclassbounds[k + 1] - 1.0 / 14.0` -/
def classCentreR (fl : K → K) (k : Fin 7) : K := fl (fl (wclassbounds k.succ) - fl (1 / 14))

/-- precipitation.py:112-115 and 185-188: cumulative weights -/
def wxxcumR (fl : K → K) (s : CascStats K) : Nat → Mat24 (XF K)
  | 0 => fun b t => s.wxx 0 b t
  | k + 1 => fun b t => (wxxcumR fl s k b t + (if h : k + 1 < 7 then s.wxx ⟨k + 1, h⟩ b t else .fin 0)).rnd fl

/-- precipitation.py:262-265 -/
def guessW1R (fl : K → K) (s : CascStats K) (b : Fin 2) (t : Fin 4) (rndw : K) (stale : Option K) : Option K :=
  match (List.finRange 7).find? fun k : Fin 7 => decide (XF.le (.fin rndw) (wxxcumR fl s k.1 b t)) with
  | some k => some (classCentreR fl k)
  | none => stale

/-- One iteration of the box loop, precipitation.py:204-281 -/
def boxStepR (fl : K → K) (rnd : Nat → K) (s : CascStats K) (meanvol : XF K) (prev : Option K) (x : K) (next : Option K) (st : CascVars K) :
    Py ((K × K) × CascVars K) :=
  if 0 < x then do
    let vb ← boxType prev next st.vbtype
    let st := { st with vbtype := vb }
    let b : Fin 2 := if XF.lt meanvol (.fin x) then 1 else 0
    match vb with
    | none => .error .unboundLocalError
    | some ty =>
      let t := ty.col
      let rndp := rnd st.draws
      let st := { st with draws := st.draws + 1 }
      if XF.le (.fin rndp) (s.p01 b t) then .ok ((0, x), st)
      else if XF.lt (s.p01 b t) (.fin rndp) ∧ XF.le (.fin rndp) ((s.p01 b t + s.p10 b t).rnd fl) then .ok ((x, 0), st)
      else
        let rndw := rnd st.draws
        let st := { st with draws := st.draws + 1, w1 := guessW1R fl s b t rndw st.w1 }
        match st.w1 with
        | none => .error .unboundLocalError
        | some w => if w < 0 ∨ 1 < w then .error .returnedNone else .ok ((fl (w * x), fl (fl (1 - w) * x)), st)
  else .ok ((0, 0), st)

/-- The box loop of one level (precipitation.py:201-281) -/
def boxLoopR (fl : K → K) (rnd : Nat → K) (s : CascStats K) (meanvol : XF K) : Option K → List K → CascVars K → Py (List K × CascVars K)
  | _, [], st => .ok ([], st)
  | prev, x :: xs, st => do
    let ((a, b), st) ← boxStepR fl rnd s meanvol prev x xs.head? st
    let (rest, st) ← boxLoopR fl rnd s meanvol (some x) xs st
    .ok (a :: b :: rest, st)

/-- The level loop (precipitation.py:146-281) -/
def levelLoopR (fl : K → K) (rnd : Nat → K) (opts : CascOptions K) : Nat → List K → CascVars K → Py (List (List K))
  | 0, _, _ => .ok []
  | si + 1, vin, st => do
    let (s, meanvol) ← levelStats opts si
    let (vout, st) ← boxLoopR fl rnd s meanvol none vin st
    let rest ← levelLoopR fl rnd opts si vout st
    .ok (vout :: rest)

/-- precipitation.py:283-290 -/
def quarterHoursR (fl : K → K) (v : List K) : List K := v.flatMap fun x => [fl (x / 3), fl (x / 3), fl (x / 3)]

/-- `np.cumsum`, which adds from the left; `acc` is the sum so far -/
def cumsumR (fl : K → K) : K → List K → List K
  | _, [] => []
  | acc, x :: xs => fl (acc + x) :: cumsumR fl (fl (acc + x)) xs

/-- precipitation.py:292-303: hourly values as differences of the cumulative sum -/
def hourlyFromQuarterR (fl : K → K) (q : List K) : List K :=
  let cs := cumsumR fl 0 q
  (List.range (q.length / 4)).map fun k =>
    if k = 0 then cs.getD 3 0 else fl (cs.getD (4 * (k + 1) - 1) 0 - cs.getD (4 * (k + 1) - 5) 0)

/-- precipitation.py:74-372 `disagg_prec_cascade` with `hourly=True` -/
def cascadeR (fl : K → K) (api : PandasApi) (rnd : Nat → K) (daily : Series (XF K)) (opts : CascOptions K) (shift : Int := 0) :
    Py (CascadeOut K) :=
  if daily.length < 2 then .error .valueError
  else do
    let v ← zeroMissing daily.values
    let missing := (daily.filter fun r => r.2.isNan).map Prod.fst
    checkOptions opts 5
    let levels ← levelLoopR fl rnd opts 5 v {}
    let q := quarterHoursR fl (levels.getLastD [])
    let index ← hourlyIndex api daily.index
    let s ← Series.make index (hourlyFromQuarterR fl q)
    let out := restoreMissing missing s
    .ok ⟨levels, q, if shift ≠ 0 then out.shiftRows shift else out⟩

/-- util.py:46-67 `distribute_equally` with `divide=True` -/
def distributeEquallyR (fl : K → K) (api : PandasApi) (daily : Series (XF K)) : Py (Series (XF K)) := do
  let index ← hourlyIndex api daily.index
  let hourly ← daily.reindex index
  let hourly := groupTransform domOf (ffill 23) hourly
  .ok (hourly.map fun r => (r.1, (r.2 / .fin 24).rnd fl))

/-- precipitation.py:392-411, one day; `sum` is `Series.sum`, whose order of additions depends on the length and on the version of numpy -/
def masterDayR (fl : K → K) (sum : List (XF K) → XF K) (zerodiv : String) (d : Int) (precip : XF K) (master : Series (XF K)) (acc : Series (XF K)) :
    Py (Series (XF K)) :=
  let tot := sum master.values
  if ¬ XF.feq tot (.fin 0) ∧ ¬ XF.feq tot (if tot.isNan then .fin 1 else .fin 0) then do
    let rel : Series (XF K) := master.map fun r => (r.1, ((r.2 / tot).rnd fl * precip).rnd fl)
    if rel.index = (acc.filter fun r => dayOf r.1 == d).map Prod.fst then
      .ok (acc.map fun r => if dayOf r.1 = d then (r.1, (rel.at? r.1).getD .nan) else r)
    else .error .unmodelled
  else if zerodiv = "uniform" then
    .ok (acc.map fun r => if dayOf r.1 = d then (r.1, (.fin (fl (1 / 24)) * precip).rnd fl) else r)
  else .ok (acc.map fun r => if dayOf r.1 = d then (r.1, .fin 0) else r)

/-- precipitation.py:375-413 `precip_master_station` -/
def precipMasterStationR (fl : K → K) (sum : List (XF K) → XF K) (api : PandasApi) (daily : Series (XF K)) (master : Series (XF K)) (zerodiv : String) :
    Py (Series (XF K)) := do
  let index ← hourlyIndex api daily.index
  let start : Series (XF K) := index.map fun t => (t, .nan)
  needs api.seriesIteritems
  daily.foldlM (init := start) fun acc r => do
    let m ← selectDate master (dayOf r.1)
    masterDayR fl sum zerodiv (dayOf r.1) r.2 m acc

end Melodist
