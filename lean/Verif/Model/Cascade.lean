import Verif.Base.Pandas
import Mathlib.Data.Fin.VecNotation
import Mathlib.Data.Rat.Cast.Defs

/-!
# Model of melodist/cascade.py

The matrices of a `CascadeStatistics` object have fixed shapes (2,4) and (7,2,4); `threshold` is a 1-d array of any length.
This file is the value level; object identity (`copy.copy`, in-place updates) is in `Verif/Model/CascadeHeap.lean`.
-/

set_option linter.unusedSectionVars false

namespace Melodist

/-- cascade.py:29-34 `BoxTypes` (without `dry` = 0) -/
inductive BoxType where
  | starting
  | enclosed
  | ending
  | isolated
deriving DecidableEq, Repr

/-- the column `vbtype - 1` of a statistics matrix -/
def BoxType.col : BoxType → Fin 4
  | .starting => 0
  | .enclosed => 1
  | .ending => 2
  | .isolated => 3

/-- a (2,4) array: intensity class (0 = below, 1 = above the threshold) × box type -/
abbrev Mat24 (K : Type) := Fin 2 → Fin 4 → K

/-- cascade.py:37-50: the attributes of a `CascadeStatistics` object -/
structure CascStats (K : Type) where
  p01 : Mat24 (XF K)
  p10 : Mat24 (XF K)
  pxx : Mat24 (XF K)
  wxx : Fin 7 → Mat24 (XF K)
  threshold : List (XF K)
  percentile : K

section
variable {K : Type} [Field K] [LinearOrder K]

/-- cascade.py:43-50 `CascadeStatistics()` -/
def CascStats.init : CascStats K where
  p01 := fun _ _ => .fin 0
  p10 := fun _ _ => .fin 0
  pxx := fun _ _ => .fin 0
  wxx := fun _ _ _ => .fin 0
  threshold := [.fin 1.67093133, .fin 2.46694444, .fin 3.66730902, .fin 5.39878419, .fin 8.04924471]
  percentile := 50

/-- sample P(0/1), cascade.py:57-62 -/
def sampleP01 : Mat24 K :=
    ![![0.576724636119866, 0.238722774405744, 0.166532122130638, 0.393474644666218],
      ![0.303345245644811, 0.0490956843857575, 0.0392403031072856, 0.228441890034704]]

/-- sample P(1/0), cascade.py:64-69 -/
def sampleP10 : Mat24 K :=
    ![![0.158217002255554, 0.256581140990052, 0.557852226779526, 0.422638238585814],
      ![0.0439831163244427, 0.0474928027621488, 0.303675296728195, 0.217512052135178]]

/-- sample P(x/x), cascade.py:71-76 -/
def samplePxx : Mat24 K :=
    ![![0.265058361624580, 0.504696084604205, 0.275615651089836, 0.183887116747968],
      ![0.652671638030746, 0.903411512852094, 0.657084400164519, 0.554046057830118]]

/-- sample weights, cascade.py:78-109 -/
def sampleWxx (k : Fin 7) : Mat24 K :=
  match k with
  | 0 => ![![0.188389148850583, 0.0806836453984190, 0.0698113025807722, 0.0621499191745602],
      ![0.240993281622128, 0.0831019646519721, 0.0415130545715575, 0.155284541403192]]
  | 1 => ![![0.190128959522795, 0.129220679033862, 0.0932213021787505, 0.193080698516532],
      ![0.196379692358065, 0.108549414860949, 0.0592714297292217, 0.0421945385836429]]
  | 2 => ![![0.163043672107111, 0.152063537378127, 0.102823783410167, 0.0906028835221283],
      ![0.186579466868095, 0.189705690316132, 0.0990207345993082, 0.107831389238912]]
  | 3 => ![![0.197765724699431, 0.220046257566978, 0.177876233348082, 0.261288786454262],
      ![0.123823472714948, 0.220514673922285, 0.102486496386323, 0.101975538893918]]
  | 4 => ![![0.114435243444815, 0.170857634762767, 0.177327072603662, 0.135362730582518],
      ![0.0939211776723413, 0.174291820501902, 0.125275822078525, 0.150842841725936]]
  | 5 => ![![0.0988683809545079, 0.152323481100248, 0.185606883566286, 0.167242856061538],
      ![0.0760275616817939, 0.127275603247149, 0.202466168603738, 0.186580243138018]]
  | 6 => ![![0.0473688704207573, 0.0948047647595988, 0.193333422312280, 0.0902721256884624],
      ![0.0822753470826286, 0.0965608324996108, 0.369966294031327, 0.255290907016382]]

/-- cascade.py:52-109 `fill_with_sample_data` (threshold and percentile are kept) -/
def CascStats.fillSample (s : CascStats K) : CascStats K :=
  { s with
    p01 := fun b t => .fin (sampleP01 b t)
    p10 := fun b t => .fin (sampleP10 b t)
    pxx := fun b t => .fin (samplePxx b t)
    wxx := fun k b t => .fin (sampleWxx k b t) }

/-- cascade.py:111-116 `a + b` (value level): the new attributes of `a` -/
def CascStats.add (a b : CascStats K) : CascStats K :=
  { a with
    p01 := fun i j => a.p01 i j + b.p01 i j
    p10 := fun i j => a.p10 i j + b.p10 i j
    pxx := fun i j => a.pxx i j + b.pxx i j
    wxx := fun k i j => a.wxx k i j + b.wxx k i j }

/-- cascade.py:118-122 `a * f` (value level): the new attributes of `a` -/
def CascStats.scale (a : CascStats K) (f : XF K) : CascStats K :=
  { a with
    p01 := fun i j => a.p01 i j * f
    p10 := fun i j => a.p10 i j * f
    pxx := fun i j => a.pxx i j * f
    wxx := fun k i j => a.wxx k i j * f }

end

end Melodist
