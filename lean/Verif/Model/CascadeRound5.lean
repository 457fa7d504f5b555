import Verif.Model.CascadeRound

/-!
# 5-minute precipitation in rounded arithmetic (C131)

precipitation.py:74-372 with `hourly=False`.  `sum` adds the numbers of one bin of `resample('5min').sum()`: one after the other (`seqSum`, older versions of pandas) or
with compensation of the rounding errors (`kahanSum`, newer versions).
-/

namespace Melodist
section
variable {K : Type} [Field K] [LinearOrder K]

/-- `s.resample('5min').sum()` (precipitation.py:311) -/
def resample5minR (sum : List K → K) (s : Series K) : Series K :=
  match s.index.min?, s.index.max? with
  | some a, some b =>
    (List.range (b / (5 * MINUTE) - a / (5 * MINUTE) + 1).toNat).map fun k : Nat =>
      let q := a / (5 * MINUTE) + (k : Int)
      (q * (5 * MINUTE), sum ((s.filter fun r => r.1 / (5 * MINUTE) == q).map Prod.snd))
  | _, _ => []

/-- precipitation.py:74-372 `disagg_prec_cascade(hourly=False)` -/
def cascade5R (fl : K → K) (sum : List K → K) (api : PandasApi) (rnd : Nat → K) (daily : Series (XF K)) (opts : CascOptions K) (level : Nat) (shift : Int := 0) :
    Py (CascadeOut K) :=
  if daily.length < 2 then .error .valueError
  else do
    let v ← zeroMissing daily.values
    let missing := (daily.filter fun r => r.2.isNan).map Prod.fst
    if level < 1 ∨ 11 < level then .error .unmodelled
    else do
      checkOptions opts level
      let levels ← levelLoopR fl rnd opts level v {}
      let index ← subLevelIndex api daily.index level
      let s ← Series.make index (levels.getLastD [])
      let out := restoreMissing missing (resample5minR sum s)
      .ok ⟨levels, levels.getLastD [], if shift ≠ 0 then out.shiftRows shift else out⟩

/-- `sumx += val` -/
def seqSum (fl : K → K) (l : List K) : K := l.foldl (fun s x => fl (s + x)) 0

/-- compensated summation as in pandas: `y = val - compensation; t = sumx + y; compensation = t - sumx - y; sumx = t` -/
def kahanLoop (fl : K → K) : K → K → List K → K
  | s, _, [] => s
  | s, c, x :: l =>
    let y := fl (x - c)
    let t := fl (s + y)
    kahanLoop fl t (fl (fl (t - s) - y)) l

def kahanSum (fl : K → K) (l : List K) : K := kahanLoop fl 0 0 l

end
end Melodist
