import Verif.Model.Interpolate
import Verif.Model.CascadeRound

/-!
# `Station.interpolate` with method 'linear' in rounded arithmetic

As `Model/Interpolate.lean`, but every arithmetic operation of `np.interp` rounds its result (`fl`).  The positions 0, 1, 2, … of the cells are exact.
-/

namespace Melodist

section
variable {K : Type} [Field K] [LinearOrder K]

/-- `np.interp(x, xp, fp)`: `slope = (fp[j+1] - fp[j]) / (xp[j+1] - xp[j])`, `slope * (x - xp[j]) + fp[j]` -/
def npInterpR (fl : K → K) (x : K) : List (K × XF K) → XF K
  | [] => .nan
  | [p] => p.2
  | p :: q :: rest =>
    if x < p.1 then p.2
    else if x < q.1 then
      let slope := (((q.2 - p.2).rnd fl) / .fin (fl (q.1 - p.1))).rnd fl
      (((slope * .fin (fl (x - p.1))).rnd fl) + p.2).rnd fl
    else npInterpR fl x (q :: rest)

/-- missing.py `_interpolate_1d`, see `interpolate1d` -/
def interpolate1dR (fl : K → K) (limit : Option Nat) (direction : LimitDirection) (area : Option LimitArea) (xs : List (K × XF K)) : List (XF K) :=
  let invalid := xs.map fun p => p.2.isNan
  let valid := xs.filter fun p => !p.2.isNan
  if valid = [] ∨ valid.length = xs.length then xs.map Prod.snd
  else (List.range xs.length).zipWith (fun i p => if p.2.isNan then (if preserveNans invalid limit direction area i then .nan else npInterpR fl p.1 valid) else p.2) xs

/-- station.py:403-437 `Station.interpolate` with method 'linear' -/
def stationInterpolateR (fl : K → K) (api : PandasApi) (daily : Frame K) (columnHours : List (String × Int)) (limit : Option Int := some 24)
    (direction : String := "both") (area : Option String := none) : Py (Series (XF K)) := do
  let data ← prepareInterpolationData api daily columnHours
  let direction ← LimitDirection.parse direction
  let area ← LimitArea.parse area
  let limit ← validateLimit limit
  let pos : List K := (List.range data.length).map fun i : Nat => (i : K)
  .ok (data.index.zip (interpolate1dR fl limit direction area (pos.zip data.values)))

end

end Melodist
