import Verif.Model.Aggregate
import Mathlib.Data.List.FinRange
import Mathlib.Logic.Function.Basic

/-!
# Object-level model of melodist/cascade.py

Numpy arrays and `CascadeStatistics` objects live in a heap; attributes are references to arrays.  An expression such as
`self.p01 = a + b` allocates a new array and rebinds the attribute; `self.wxx[k, :, :] = …` writes into the existing array, which is seen
by every object whose attribute `wxx` refers to it (objects made by `copy.copy`).
-/

set_option linter.unusedSectionVars false

namespace Melodist

/-- the attributes of one `CascadeStatistics` object: array references and the percentile -/
structure CascRefs (K : Type) where
  p01 : Nat
  p10 : Nat
  pxx : Nat
  wxx : Nat
  threshold : Nat
  percentile : K

/-- arrays of the three kinds by address, objects by identity; addresses from `nextArr` on and identities from `nextObj` on are free -/
structure Heap (K : Type) where
  mats : Nat → Mat24 (XF K)
  cubes : Nat → Fin 7 → Mat24 (XF K)
  vecs : Nat → List (XF K)
  objs : Nat → CascRefs K
  nextArr : Nat
  nextObj : Nat

namespace Heap
variable {K : Type} [Field K] [LinearOrder K]

/-- what an object looks like to its user: the current contents of its arrays -/
def view (h : Heap K) (o : Nat) : CascStats K where
  p01 := h.mats (h.objs o).p01
  p10 := h.mats (h.objs o).p10
  pxx := h.mats (h.objs o).pxx
  wxx := h.cubes (h.objs o).wxx
  threshold := h.vecs (h.objs o).threshold
  percentile := (h.objs o).percentile

/-- every object refers to allocated arrays -/
def WF (h : Heap K) : Prop :=
  ∀ o < h.nextObj, (h.objs o).p01 < h.nextArr ∧ (h.objs o).p10 < h.nextArr ∧ (h.objs o).pxx < h.nextArr ∧
    (h.objs o).wxx < h.nextArr ∧ (h.objs o).threshold < h.nextArr

/-- rebind the attributes of one object -/
def setObj (h : Heap K) (o : Nat) (r : CascRefs K) : Heap K := { h with objs := Function.update h.objs o r }

/-- `o.p01 = <new array m>` -/
def rebindP01 (h : Heap K) (o : Nat) (m : Mat24 (XF K)) : Heap K :=
  { h with mats := Function.update h.mats h.nextArr m, nextArr := h.nextArr + 1,
           objs := Function.update h.objs o { h.objs o with p01 := h.nextArr } }

/-- `o.p10 = <new array m>` -/
def rebindP10 (h : Heap K) (o : Nat) (m : Mat24 (XF K)) : Heap K :=
  { h with mats := Function.update h.mats h.nextArr m, nextArr := h.nextArr + 1,
           objs := Function.update h.objs o { h.objs o with p10 := h.nextArr } }

/-- `o.pxx = <new array m>` -/
def rebindPxx (h : Heap K) (o : Nat) (m : Mat24 (XF K)) : Heap K :=
  { h with mats := Function.update h.mats h.nextArr m, nextArr := h.nextArr + 1,
           objs := Function.update h.objs o { h.objs o with pxx := h.nextArr } }

/-- `o.wxx = <new array c>` -/
def rebindWxx (h : Heap K) (o : Nat) (c : Fin 7 → Mat24 (XF K)) : Heap K :=
  { h with cubes := Function.update h.cubes h.nextArr c, nextArr := h.nextArr + 1,
           objs := Function.update h.objs o { h.objs o with wxx := h.nextArr } }

/-- `o.threshold = <new array v>` -/
def rebindThreshold (h : Heap K) (o : Nat) (v : List (XF K)) : Heap K :=
  { h with vecs := Function.update h.vecs h.nextArr v, nextArr := h.nextArr + 1,
           objs := Function.update h.objs o { h.objs o with threshold := h.nextArr } }

/-- `o.wxx[k, :, :] = m` (in place) -/
def writeSlice (h : Heap K) (o : Nat) (k : Fin 7) (m : Mat24 (XF K)) : Heap K :=
  { h with cubes := Function.update h.cubes (h.objs o).wxx (Function.update (h.cubes (h.objs o).wxx) k m) }

/-- elementwise sum of two (2,4) arrays -/
def addMat (a b : Mat24 (XF K)) : Mat24 (XF K) := fun i j => a i j + b i j

/-- cascade.py:111-116 `a + b`; returns None, the heap is the new state -/
def add (h : Heap K) (a b : Nat) : Heap K :=
  let h := h.rebindP01 a (addMat (h.mats (h.objs a).p01) (h.mats (h.objs b).p01))
  let h := h.rebindP10 a (addMat (h.mats (h.objs a).p10) (h.mats (h.objs b).p10))
  let h := h.rebindPxx a (addMat (h.mats (h.objs a).pxx) (h.mats (h.objs b).pxx))
  (List.finRange 7).foldl (fun h k => h.writeSlice a k (addMat (h.cubes (h.objs a).wxx k) (h.cubes (h.objs b).wxx k))) h

/-- cascade.py:118-122 `a * f`; returns None -/
def mul (h : Heap K) (a : Nat) (f : XF K) : Heap K :=
  let h := h.rebindP01 a fun i j => h.mats (h.objs a).p01 i j * f
  let h := h.rebindP10 a fun i j => h.mats (h.objs a).p10 i j * f
  let h := h.rebindPxx a fun i j => h.mats (h.objs a).pxx i j * f
  h.rebindWxx a fun k i j => h.cubes (h.objs a).wxx k i j * f

/-- `copy.copy(a)`: a new object with the same attribute references -/
def copy (h : Heap K) (a : Nat) : Heap K × Nat :=
  ({ h with objs := Function.update h.objs h.nextObj (h.objs a), nextObj := h.nextObj + 1 }, h.nextObj)

/-- a new object whose attributes are new arrays with the contents of `s` (cascade.py:43-50 followed by whatever filled it) -/
def new (h : Heap K) (s : CascStats K) : Heap K × Nat :=
  let n := h.nextArr
  ({ mats := Function.update (Function.update (Function.update h.mats n s.p01) (n + 1) s.p10) (n + 2) s.pxx
     cubes := Function.update h.cubes (n + 3) s.wxx
     vecs := Function.update h.vecs (n + 4) s.threshold
     objs := Function.update h.objs h.nextObj ⟨n, n + 1, n + 2, n + 3, n + 4, s.percentile⟩
     nextArr := n + 5
     nextObj := h.nextObj + 1 }, h.nextObj)

/-- precipitation.py:678-687: the loop over the aggregation levels with its objects.  `casc` is `casc_opt`; the result has the objects
in `list_casc_opt`, the heap, and `count`. -/
def levelLoop [FloorRing K] (percentile : K) : Nat → Series (XF K) → Heap K → Nat → Nat → Py (List Nat × Heap K × Nat)
  | 0, _, h, _, count => .ok ([], h, count)
  | n + 1, vdn, h, casc, count => do
    let (s, vdn) ← aggregatePrecipitation vdn percentile
    let (h, i) := h.new s
    let (h, c) := h.copy i
    let h := h.mul i (.fin (vdn.length : K))
    let h := h.add casc i
    let (cs, h, count) ← levelLoop percentile n vdn h casc (count + vdn.length)
    .ok (c :: cs, h, count)

/-- precipitation.py:665-698 on the heap: `.inl` the averaged object or `.inr` the list of copies, and the heap at the end -/
def season [FloorRing K] (vdn : Series (XF K)) (levels : Nat) (avgStats : Bool) (percentile : K) (h : Heap K) :
    Py (Heap K × (Nat ⊕ List Nat)) := do
  let (h, casc) := h.new { CascStats.init with percentile := percentile }
  let (cs, h, count) ← levelLoop percentile levels vdn h casc 0
  if count = 0 then throw .zeroDivisionError
  let h := h.mul casc (.fin (1 / (count : K)))
  -- thresholds[i] was read from the object of level i
  let h := h.rebindThreshold casc (cs.map fun c => (h.view c).threshold.headD .nan)
  .ok (h, if avgStats then .inl casc else .inr cs)

end Heap

/-! ## Equality and dictionaries -/

section
variable {K : Type} [Field K] [LinearOrder K]

/-- `np.array_equal` on arrays of the same shape -/
def mat24Equal (a b : Mat24 (XF K)) : Bool :=
  (List.finRange 2).all fun i => (List.finRange 4).all fun j => decide (XF.feq (a i j) (b i j))

/-- `np.array_equal` on 1-d arrays -/
def vecEqual (a b : List (XF K)) : Bool := decide (a.length = b.length) && (a.zip b).all fun r => decide (XF.feq r.1 r.2)

/-- cascade.py:124-132 `a == b` -/
def CascStats.eq (a b : CascStats K) : Bool :=
  mat24Equal a.p01 b.p01 && mat24Equal a.p10 b.p10 && mat24Equal a.pxx b.pxx &&
  ((List.finRange 7).all fun k => mat24Equal (a.wxx k) (b.wxx k)) && vecEqual a.threshold b.threshold &&
  decide (a.percentile = b.percentile)

/-- cascade.py:134-135 `a != b` -/
def CascStats.ne (a b : CascStats K) : Bool := ! a.eq b

/-- what a dictionary value can be: a number or a (nested) list (or array) -/
inductive Nested (K : Type) where
  | num (x : XF K)
  | list (l : List (Nested K))

/-- `np.array(x)` and its shape.  Lists whose entries have different shapes are refused (ValueError, "inhomogeneous shape"). -/
def Nested.shape {K : Type} : Nested K → Py (List Nat)
  | .num _ => .ok []
  | .list l =>
    match l with
    | [] => .ok [0]
    | x :: xs => do
      let s ← Nested.shape x
      let ok ← sameShape s xs
      if ok then .ok ((xs.length + 1) :: s) else .error .valueError
where
  /-- all entries have shape `s` -/
  sameShape {K : Type} (s : List Nat) : List (Nested K) → Py Bool
    | [] => .ok true
    | x :: xs => do
      let sx ← Nested.shape x
      let rest ← sameShape s xs
      .ok (decide (sx = s) && rest)

/-- entry `i` of a list, a number or empty list when it does not exist -/
def Nested.get {K : Type} (x : Nested K) (i : Nat) : Nested K :=
  match x with
  | .num y => .num y
  | .list l => l.getD i (.num .nan)

/-- the number at a position -/
def Nested.val {K : Type} : Nested K → XF K
  | .num x => x
  | .list _ => .nan

/-- the dictionary given to `from_dict`: string keys; the value of 'percentile' is a number -/
structure CascDict (K : Type) where
  arrays : String → Option (Nested K)
  percentile : Option K

/-- `np.array(d[key])`: its shape and itself -/
def CascDict.array {K : Type} (d : CascDict K) (key : String) : Py (List Nat × Nested K) :=
  match d.arrays key with
  | none => .error .keyError
  | some x => do .ok (← x.shape, x)

/-- a (2,4) array as matrix -/
def Nested.mat {K : Type} (x : Nested K) : Mat24 (XF K) := fun i j => ((x.get i).get j).val

/-- cascade.py:137-153 `CascadeStatistics.from_dict`.  The shape of `threshold` is not checked there; the model covers 1-d arrays
and refuses others as unmodelled. -/
def CascStats.fromDict (d : CascDict K) : Py (CascStats K) := do
  let p01 ← d.array "p01"
  let p10 ← d.array "p10"
  let pxx ← d.array "pxx"
  let wxx ← d.array "wxx"
  let threshold ← d.array "threshold"
  let some percentile := d.percentile | throw .keyError
  if p01.1 ≠ [2, 4] then throw .assertionError
  if p10.1 ≠ [2, 4] then throw .assertionError
  if pxx.1 ≠ [2, 4] then throw .assertionError
  if wxx.1 ≠ [7, 2, 4] then throw .assertionError
  match threshold with
  | ([n], t) =>
    .ok { p01 := p01.2.mat, p10 := p10.2.mat, pxx := pxx.2.mat, wxx := fun k => (wxx.2.get k).mat,
          threshold := (List.range n).map fun i => (t.get i).val, percentile := percentile }
  | _ => throw .unmodelled

/-- nested list of a 1-d array -/
def vecList (v : List (XF K)) : Nested K := .list (v.map .num)

/-- nested list of a (2,4) array (`tolist`) -/
def matList (m : Mat24 (XF K)) : Nested K :=
  .list ((List.finRange 2).map fun i => .list ((List.finRange 4).map fun j => .num (m i j)))

/-- `vars(s)`, with arrays as nested lists -/
def CascStats.toDict (s : CascStats K) : CascDict K where
  arrays := fun key =>
    if key = "p01" then some (matList s.p01)
    else if key = "p10" then some (matList s.p10)
    else if key = "pxx" then some (matList s.pxx)
    else if key = "wxx" then some (.list ((List.finRange 7).map fun k => matList (s.wxx k)))
    else if key = "threshold" then some (vecList s.threshold)
    else none
  percentile := some s.percentile

end

end Melodist
