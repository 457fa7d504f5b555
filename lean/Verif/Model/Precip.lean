import Verif.Model.Util
import Verif.Model.Cascade

/-!
# Model of melodist/precipitation.py, disaggregation part (lines 32-413)
-/

set_option linter.unusedSectionVars false

namespace Melodist

section cascade
variable {K : Type} [Field K] [LinearOrder K]

/-- Determination of the box type of a wet box, precipitation.py:206-227.  `prev`/`next` are the neighbouring boxes (`none` at the
ends of the array); `stale` is the value the Python variable `vbtype` already has (`none`: not yet assigned), which survives
when no case applies (a neighbour is negative).  A single box would read past the end: IndexError. -/
def boxType (prev next : Option K) (stale : Option BoxType) : Py (Option BoxType) :=
  match prev, next with
  | none, none => .error .indexError
  | none, some nx => .ok (some (if 0 < nx then .starting else .isolated))
  | some pv, none => .ok (some (if 0 < pv then .ending else .isolated))
  | some pv, some nx =>
    let v := stale
    let v := if pv = 0 ∧ nx = 0 then some .isolated else v
    let v := if pv = 0 ∧ 0 < nx then some .starting else v
    let v := if 0 < pv ∧ 0 < nx then some .enclosed else v
    let v := if 0 < pv ∧ nx = 0 then some .ending else v
    .ok v

/-- precipitation.py:143: `wclassbounds` -/
def wclassbounds : Fin 8 → K := ![0.0, 0.1429, 0.2857, 0.4286, 0.5714, 0.7143, 0.8571, 1.0]

/-- the class centre `wclassbounds[k + 1] - 1.0 / 14.0` of precipitation.py:264 -/
def classCentre (k : Fin 7) : K := wclassbounds k.succ - 1 / 14

/-- precipitation.py:112-115 and 185-188: cumulative weights, `wxxcum[k] = wxxcum[k-1] + wxx[k]` -/
def wxxcum (s : CascStats K) : Nat → Mat24 (XF K)
  | 0 => fun b t => s.wxx 0 b t
  | k + 1 => fun b t => wxxcum s k b t + (if h : k + 1 < 7 then s.wxx ⟨k + 1, h⟩ b t else .fin 0)

/-- precipitation.py:262-265: the first class `k` with `rndw <= wxxcum[k]`; `stale` is the previous value of `w1` -/
def guessW1 (s : CascStats K) (b : Fin 2) (t : Fin 4) (rndw : K) (stale : Option K) : Option K :=
  match (List.finRange 7).find? fun k : Fin 7 => decide (XF.le (.fin rndw) (wxxcum s k.1 b t)) with
  | some k => some (classCentre k)
  | none => stale

/-- Python variables that survive an iteration of the box loop: number of random numbers drawn, `vbtype`, `w1` -/
structure CascVars (K : Type) where
  draws : Nat := 0
  vbtype : Option BoxType := none
  w1 : Option K := none

/-- One iteration of the box loop, precipitation.py:204-281: the two values written to `vdn_out` and the new variables.
`rnd k` is the `k`-th value returned by `np.random.random()`. -/
def boxStep (rnd : Nat → K) (s : CascStats K) (meanvol : XF K) (prev : Option K) (x : K) (next : Option K) (st : CascVars K) :
    Py ((K × K) × CascVars K) :=
  if 0 < x then do
    let vb ← boxType prev next st.vbtype
    let st := { st with vbtype := vb }
    let b : Fin 2 := if XF.lt meanvol (.fin x) then 1 else 0
    match vb with
    | none => .error .unboundLocalError
    | some ty =>
      let t := ty.col
      let rndp := rnd st.draws
      let st := { st with draws := st.draws + 1 }
      if XF.le (.fin rndp) (s.p01 b t) then .ok ((0, x), st)
      else if XF.lt (s.p01 b t) (.fin rndp) ∧ XF.le (.fin rndp) (s.p01 b t + s.p10 b t) then .ok ((x, 0), st)
      else
        let rndw := rnd st.draws
        let st := { st with draws := st.draws + 1, w1 := guessW1 s b t rndw st.w1 }
        match st.w1 with
        | none => .error .unboundLocalError
        | some w => if w < 0 ∨ 1 < w then .error .returnedNone else .ok ((w * x, (1 - w) * x), st)
  else .ok ((0, 0), st)

/-- The box loop of one level (precipitation.py:201-281); `prev` is the box before the remaining ones -/
def boxLoop (rnd : Nat → K) (s : CascStats K) (meanvol : XF K) : Option K → List K → CascVars K → Py (List K × CascVars K)
  | _, [], st => .ok ([], st)
  | prev, x :: xs, st => do
    let ((a, b), st) ← boxStep rnd s meanvol prev x xs.head? st
    let (rest, st) ← boxLoop rnd s meanvol (some x) xs st
    .ok (a :: b :: rest, st)

/-- the `cascade_options` argument: one object, a list of objects, or anything else -/
inductive CascOptions (K : Type) where
  | one (s : CascStats K)
  | many (l : List (CascStats K))
  | other

/-- statistics and threshold used in a level with (decremented) counter `si`, precipitation.py:182-191 -/
def levelStats (opts : CascOptions K) (si : Nat) : Py (CascStats K × XF K) :=
  match opts with
  | .one s => match s.threshold[si]? with
    | some m => .ok (s, m)
    | none => .error .indexError
  | .many l => match l[si]? with
    | some s => match s.threshold[0]? with
      | some m => .ok (s, m)
      | none => .error .indexError
    | none => .error .indexError
  | .other => .error .typeError

/-- The level loop (precipitation.py:146-281).  The first argument is the number of levels still to do, which is the value of
`si` before its decrement.  Returns the array of every level. -/
def levelLoop (rnd : Nat → K) (opts : CascOptions K) : Nat → List K → CascVars K → Py (List (List K))
  | 0, _, _ => .ok []
  | si + 1, vin, st => do
    let (s, meanvol) ← levelStats opts si
    let (vout, st) ← boxLoop rnd s meanvol none vin st
    let rest ← levelLoop rnd opts si vout st
    .ok (vout :: rest)

/-- precipitation.py:283-290: every 0.75 h value becomes three 0.25 h values -/
def quarterHours (v : List K) : List K := v.flatMap fun x => [x / 3, x / 3, x / 3]

/-- `np.cumsum`; `acc` is the sum so far -/
def cumsum : K → List K → List K
  | _, [] => []
  | acc, x :: xs => (acc + x) :: cumsum (acc + x) xs

/-- precipitation.py:292-303: hourly values as differences of the cumulative sum.  The loop writes `vdn[0]` at i = 0,
nothing at i = 1 and `vdn[i-1]` for i >= 2; entry `k` of the result is what ends up in `vdn[k]`. -/
def hourlyFromQuarter (q : List K) : List K :=
  let cs := cumsum 0 q
  (List.range (q.length / 4)).map fun k =>
    if k = 0 then cs.getD 3 0 else cs.getD (4 * (k + 1) - 1) 0 - cs.getD (4 * (k + 1) - 5) 0

/-- precipitation.py:705-737 `sub_level_index`, for 1 ≤ level ≤ 11.  The rebuilt timestamps of lines 727-735 lose the fraction of a
second. -/
def subLevelIndex (api : PandasApi) (idx : List Time) (level : Nat) (fillGaps : Bool := false) : Py (List Time) :=
  match idx.min?, idx.max? with
  | some lo, some hi =>
    let index := dateRange lo (replaceHMS hi 23 59 59) (42187500 * 2 ^ (11 - level))
    if !fillGaps && decide (index.length > idx.length * 2 ^ level) then do
      let kept := index.filter fun t => (idx.map dayOf).contains (dayOf t)
      if kept ≠ [] then needs api.pdDatetime
      .ok (kept.map fun t => dayOf t * DAY + hourOf t * HOUR + minuteOf t * MINUTE + secondOf t * SECOND)
    else .ok index
  | _, _ => .error .valueError

/-- `s.resample('5min').sum()`: one row per 5-minute bin from the first to the last row; an empty bin sums to 0 -/
def resample5min (s : Series K) : Series K :=
  match s.index.min?, s.index.max? with
  | some a, some b =>
    (List.range (b / (5 * MINUTE) - a / (5 * MINUTE) + 1).toNat).map fun k : Nat =>
      let q := a / (5 * MINUTE) + (k : Int)
      (q * (5 * MINUTE), ((s.filter fun r => r.1 / (5 * MINUTE) == q).map Prod.snd).sum)
  | _, _ => []

/-- the daily cells as plain numbers after `precip_daily[missing_days] = 0` (precipitation.py:97-99); infinite cells are outside the
scope of the model.  Simplified: if a timestamp occurs twice in the index, the assignment by label also clears the other row of that timestamp, which the model
does not. -/
def zeroMissing : List (XF K) → Py (List K)
  | [] => .ok []
  | .nan :: xs => do .ok (0 :: (← zeroMissing xs))
  | .fin x :: xs => do .ok (x :: (← zeroMissing xs))
  | _ :: _ => .error .unmodelled

/-- precipitation.py:314-315: all rows whose date is the date of a missing day become NaN -/
def restoreMissing (missing : List Time) (s : Series K) : Series (XF K) :=
  s.map fun r => (r.1, if (missing.map dayOf).contains (dayOf r.1) then .nan else .fin r.2)

/-- What `disagg_prec_cascade` computes: the level arrays, the array before the final resampling, and the result series. -/
structure CascadeOut (K : Type) where
  levels : List (List K)
  fine : List K
  series : Series (XF K)
deriving DecidableEq

/-- precipitation.py:108-123: type and length of `cascade_options` -/
def checkOptions (opts : CascOptions K) (si : Nat) : Py Unit :=
  match opts with
  | .one _ => .ok ()
  | .many l => if l.length = si then .ok () else .error .valueError
  | .other => .error .typeError

/-- precipitation.py:283-311: from the array of the last level to the (unmasked) result series; also returns the array `vdn_025`
respectively the values of `precip_sn` -/
def assembleSeries (api : PandasApi) (idx : List Time) (hourly : Bool) (level : Nat) (vout : List K) : Py (List K × Series K) :=
  if hourly then do
    let index ← hourlyIndex api idx
    let s ← Series.make index (hourlyFromQuarter (quarterHours vout))
    .ok (quarterHours vout, s)
  else do
    let index ← subLevelIndex api idx level
    let s ← Series.make index vout
    .ok (vout, resample5min s)

/-- precipitation.py:74-372 `disagg_prec_cascade`.  `level` is restricted to 1..11 (others: `unmodelled`).  `test = true` returns
the level arrays as well; for a 5-minute run with a level other than 9, 10, 11 that return statement reads the unassigned `vdn10`. -/
def disaggPrecCascade (api : PandasApi) (rnd : Nat → K) (daily : Series (XF K)) (opts : CascOptions K)
    (hourly : Bool := true) (level : Nat := 9) (shift : Int := 0) (test : Bool := false) : Py (CascadeOut K) :=
  if daily.length < 2 then .error .valueError
  else do
    let v ← zeroMissing daily.values
    let missing := (daily.filter fun r => r.2.isNan).map Prod.fst
    let si := if hourly then 5 else level
    if si < 1 ∨ 11 < si then .error .unmodelled
    else do
      checkOptions opts si
      let levels ← levelLoop rnd opts si v {}
      let (fine, s) ← assembleSeries api daily.index hourly level (levels.getLastD [])
      let out := restoreMissing missing s
      let out := if shift ≠ 0 then out.shiftRows shift else out
      if test ∧ hourly = false ∧ level ≠ 9 ∧ level ≠ 10 ∧ level ≠ 11 then .error .unboundLocalError
      else .ok ⟨levels, fine, out⟩

end cascade

section master
variable {K : Type} [Field K] [LinearOrder K]

/-- precipitation.py:392-411, one day: `master` are the master station's rows of the day, `acc` the hourly series so far.
A scalar is written to all cells of the date.  Simplified: how a Series with other timestamps than those of the day is assigned (aligned or by
position) depends on the version of pandas; this is outside the scope of the model. -/
def masterDay (zerodiv : String) (d : Int) (precip : XF K) (master : Series (XF K)) (acc : Series (XF K)) :
    Py (Series (XF K)) :=
  let tot := sumSkip master.values
  -- second conjunct: `tot != np.isnan(tot)`; `np.isnan(tot)` is a bool, i.e. 0 or 1
  if ¬ XF.feq tot (.fin 0) ∧ ¬ XF.feq tot (if tot.isNan then .fin 1 else .fin 0) then do
    let rel : Series (XF K) := master.map fun r => (r.1, r.2 / tot * precip)
    if rel.index = (acc.filter fun r => dayOf r.1 == d).map Prod.fst then
      .ok (acc.map fun r => if dayOf r.1 = d then (r.1, (rel.at? r.1).getD .nan) else r)
    else .error .unmodelled
  else if zerodiv = "uniform" then
    .ok (acc.map fun r => if dayOf r.1 = d then (r.1, .fin (1 / 24) * precip) else r)
  else .ok (acc.map fun r => if dayOf r.1 = d then (r.1, .fin 0) else r)

/-- precipitation.py:394-395 `master_precip_hourly[index_d.date().isoformat()]` (pandas' selection by a date string): the rows of that date.
KeyError if the index is chronological and the whole day lies before its first or after its last timestamp; a day without rows in between gives
no rows.  An index with only midnights (pandas resolution 'day') is searched for the label itself: KeyError if it is empty; otherwise outside
the scope of the model. -/
def selectDate {V : Type} (s : Series V) (d : Int) : Py (Series V) :=
  if s.all (fun q => q.1 % DAY == 0) then (if s.isEmpty then .error .keyError else .error .unmodelled)
  else if (s.map Prod.fst).Pairwise (· ≤ ·) ∧ ((s.all fun q => decide (d < dayOf q.1)) ∨ (s.all fun q => decide (dayOf q.1 < d))) then .error .keyError
  else .ok (s.filter fun q => dayOf q.1 == d)

/-- precipitation.py:375-413 `precip_master_station` -/
def precipMasterStation (api : PandasApi) (daily : Series (XF K)) (master : Series (XF K)) (zerodiv : String) :
    Py (Series (XF K)) := do
  let index ← hourlyIndex api daily.index
  let start : Series (XF K) := index.map fun t => (t, .nan)
  needs api.seriesIteritems
  daily.foldlM (init := start) fun acc r => do
    let m ← selectDate master (dayOf r.1)
    masterDay zerodiv (dayOf r.1) r.2 m acc

/-- what the caller passes as `dailyData` -/
inductive DailyInput (K : Type) where
  | frame (f : Frame K)
  | series (s : Series (XF K))

/-- precipitation.py:32-71 `disagg_prec`.  Method 'equal' needs a frame (attribute `precip`); a frame passed to the other methods is
outside the scope of the model. -/
def disaggPrec (api : PandasApi) (rnd : Nat → K) (daily : DailyInput K) (method : String := "equal")
    (opts : Option (CascOptions K) := none) (master : Option (Series (XF K)) := none) (zerodiv : String := "uniform")
    (shift : Int := 0) : Py (Series (XF K)) :=
  if method ≠ "equal" ∧ method ≠ "cascade" ∧ method ≠ "masterstation" then .error .valueError
  else if method = "equal" then
    match daily with
    | .frame f => do distributeEqually api (← f.attr "precip") true
    | .series _ => .error .attributeError
  else if method = "masterstation" then
    match daily, master with
    | .series s, some m => precipMasterStation api s m zerodiv
    | .series s, none => do  -- `None[index]`: TypeError (after hourly_index and iteritems)
        let _ ← hourlyIndex api s.index
        needs api.seriesIteritems
        .error .typeError
    | .frame _, _ => .error .unmodelled
  else
    match opts with
    | none => .error .assertionError
    | some o =>
      match daily with
      | .series s => do .ok (← disaggPrecCascade api rnd s o (shift := shift)).series
      | .frame _ => .error .unmodelled

end master

end Melodist
