import Verif.Base.Err
import Mathlib.Data.List.Basic

/-!
# Model of `melodist/util/bunch.py`

The groups `temp`, `wind`, `precip`, `hum` and `glob` of a `StationStatistics` object
(`melodist/stationstatistics.py`) are `Bunch` objects: dictionaries whose items can be read and
written as attributes.  What makes this work is aliasing (`self.__dict__ = self`), so the model is
a heap of Python objects.

Simplifications: immutable values (numbers, strings, `None`) are `atom`s; mutable objects are
lists, plain dictionaries and Bunches.  A list is kept as an association list from its positions.
Attribute names with two leading underscores that are not stored in the mapping, and the data
descriptors of the class, are outside the model (`unmodelled`).  Subclasses of `Bunch` are not
modelled (`type(self)` is `Bunch`).
-/

set_option linter.unusedSectionVars false

namespace Melodist.Bunch

/-- Keys of a dictionary: strings and other hashable values (numbers). -/
inductive Key where
  | str (s : String)
  | num (n : Int)
deriving DecidableEq, Repr

/-- A Python value: immutable, or a reference to the mutable object number `i`. -/
inductive Val where
  | atom (n : Int)
  | ref (i : Nat)
deriving DecidableEq, Repr

inductive Kind where
  | bunch
  | dict
  | list
deriving DecidableEq, Repr

/-- The content of a dictionary in insertion order. -/
abbrev Items := List (Key × Val)

/-- A mutable object.  `ns` is the number of the object that serves as its `__dict__`; it is only
meaningful for a Bunch. -/
structure Obj where
  kind : Kind
  items : Items
  ns : Nat
deriving DecidableEq, Repr

/-- All objects created so far; an object is referred to by its position. -/
abbrev Heap := List Obj

/-- `d[k]` -/
def lookup (k : Key) : Items → Option Val
  | [] => none
  | (k', v) :: r => if k' = k then some v else lookup k r

/-- `d[k] = v`: replaces the value of an existing key, otherwise appends. -/
def store (k : Key) (v : Val) : Items → Items
  | [] => [(k, v)]
  | (k', v') :: r => if k' = k then (k, v) :: r else (k', v') :: store k v r

/-- `del d[k]` for a key that is present. -/
def discard (k : Key) : Items → Items
  | [] => []
  | (k', v') :: r => if k' = k then r else (k', v') :: discard k r

/-- Replace object `i`. -/
def change (h : Heap) (i : Nat) (f : Obj → Obj) : Heap := h.modify i f

/-- `x[k]` for a list, a dictionary or a Bunch (`dict.__getitem__`, not overridden). -/
def getItem (h : Heap) (i : Nat) (k : Key) : Py Val :=
  match h[i]? with
  | none => .error .unmodelled
  | some o =>
    match lookup k o.items with
    | some v => .ok v
    | none => .error (if o.kind = .list then .indexError else .keyError)

/-- `x[k] = v` (`dict.__setitem__`, not overridden); a list has to have position `k`. -/
def setItem (h : Heap) (i : Nat) (k : Key) (v : Val) : Py Heap :=
  match h[i]? with
  | none => .error .unmodelled
  | some o =>
    if o.kind = .list ∧ lookup k o.items = none then .error .indexError
    else .ok (change h i fun o => { o with items := store k v o.items })

/-- `del x[k]` for a dictionary or a Bunch (lists are not modelled: the positions would shift). -/
def delItem (h : Heap) (i : Nat) (k : Key) : Py Heap :=
  match h[i]? with
  | none => .error .unmodelled
  | some o =>
    if o.kind = .list then .error .unmodelled
    else match lookup k o.items with
      | none => .error .keyError
      | some _ => .ok (change h i fun o => { o with items := discard k o.items })

/-- Names which the class `Bunch` or its base `dict` define for all instances: the methods of
`dict` and `copy` (bunch.py:17). -/
def methods : List String :=
  ["clear", "copy", "fromkeys", "get", "items", "keys", "pop", "popitem", "setdefault", "update", "values"]

/-- Attributes implemented by data descriptors of the class, which take precedence over the
instance dictionary. -/
def descriptors : List String := ["__class__", "__dict__", "__weakref__"]

/-- The value of an attribute: a stored value or a bound method. -/
inductive Attr where
  | value (v : Val)
  | method (name : String)
deriving DecidableEq, Repr

/-- `b.name`: data descriptors of the class, then the instance dictionary, then the class. -/
def getAttr (h : Heap) (i : Nat) (name : String) : Py Attr :=
  match h[i]? with
  | none => .error .unmodelled
  | some o =>
    if o.kind ≠ .bunch ∨ name ∈ descriptors then .error .unmodelled
    else match h[o.ns]? with
      | none => .error .unmodelled
      | some d =>
        match lookup (.str name) d.items with
        | some v => .ok (.value v)
        | none =>
          if name ∈ methods then .ok (.method name)
          else if name.startsWith "__" then .error .unmodelled
          else .error .attributeError

/-- `b.name = v`: the class defines no data descriptor `name`, so the instance dictionary is
written. -/
def setAttr (h : Heap) (i : Nat) (name : String) (v : Val) : Py Heap :=
  match h[i]? with
  | none => .error .unmodelled
  | some o =>
    if o.kind ≠ .bunch ∨ name ∈ descriptors then .error .unmodelled
    else .ok (change h o.ns fun d => { d with items := store (.str name) v d.items })

/-- `del b.name` -/
def delAttr (h : Heap) (i : Nat) (name : String) : Py Heap :=
  match h[i]? with
  | none => .error .unmodelled
  | some o =>
    if o.kind ≠ .bunch ∨ name ∈ descriptors then .error .unmodelled
    else match h[o.ns]? with
      | none => .error .unmodelled
      | some d =>
        match lookup (.str name) d.items with
        | none => .error .attributeError
        | some _ => .ok (change h o.ns fun d => { d with items := discard (.str name) d.items })

/-- Can the dictionary be passed as keyword arguments to `__init__(self, **kw)` (bunch.py:6)?  The
keys have to be strings, and `self` is taken. -/
def keywordOk : Key → Bool
  | .str s => s != "self"
  | .num _ => false

/-- `Bunch(**kw)`, bunch.py:6-8.  A new object has an instance dictionary of its own (object `d`)
until `self.__dict__ = self` replaces it. -/
def init (h : Heap) (kw : Items) : Py (Heap × Nat) :=
  if kw.all (fun e => keywordOk e.1) then
    let d := h.length
    let i := h.length + 1
    let h := h ++ [⟨.dict, [], 0⟩, ⟨.bunch, [], d⟩]
    let h := change h i fun o => { o with items := kw }    -- dict.__init__(self, kw)
    let h := change h i fun o => { o with ns := i }        -- self.__dict__ = self
    .ok (h, i)
  else .error .typeError

/-- `copy.copy(b)`, i.e. `b.__copy__()`, bunch.py:10-12. -/
def copy (h : Heap) (i : Nat) : Py (Heap × Nat) :=
  match h[i]? with
  | none => .error .unmodelled
  | some o => if o.kind = .bunch then init h o.items else .error .unmodelled

/-- `b.copy()`, bunch.py:17-18: the attribute `copy` is looked up first, and an item of that name
(not callable) hides the method. -/
def copyMethod (h : Heap) (i : Nat) : Py (Heap × Nat) := do
  match ← getAttr h i "copy" with
  | .value _ => .error .typeError
  | .method _ => copy h i

/-- The memo of `copy.deepcopy`: originals already copied, with their copies. -/
abbrev Memo := List (Nat × Nat)

/-- Copy the values of `items` one after another. -/
def mapItems (f : Heap → Memo → Val → Py (Heap × Memo × Val)) :
    Heap → Memo → Items → Py (Heap × Memo × Items)
  | h, m, [] => .ok (h, m, [])
  | h, m, (k, v) :: r => do
    let (h, m, v) ← f h m v
    let (h, m, r) ← mapItems f h m r
    .ok (h, m, (k, v) :: r)

/-- `copy.deepcopy(v, memo)` with `fuel` levels of recursion left.  Immutable values are returned
as they are.  A list or dictionary is entered into the memo before its elements are copied.  A
Bunch is copied by its method `__deepcopy__` (bunch.py:14-15): the elements of `dict(self)` are
copied with a *new* memo and passed to `Bunch(**...)`; the result is entered into the memo
afterwards.  (The temporary dictionary `dict(self)` and its copy are not put on the heap, nobody
else can refer to them.) -/
def deep : Nat → Heap → Memo → Val → Py (Heap × Memo × Val)
  | _, h, m, .atom n => .ok (h, m, .atom n)
  | 0, _, _, .ref _ => .error .recursionError
  | fuel + 1, h, m, .ref i =>
    match m.lookup i with
    | some j => .ok (h, m, .ref j)
    | none =>
      match h[i]? with
      | none => .error .unmodelled
      | some o =>
        match o.kind with
        | .bunch => do
          let (h, _, items) ← mapItems (deep fuel) h [] o.items
          let (h, j) ← init h items
          .ok (h, (i, j) :: m, .ref j)
        | kind => do
          let j := h.length
          let (h, m, items) ← mapItems (deep fuel) (h ++ [⟨kind, [], 0⟩]) ((i, j) :: m) o.items
          .ok (change h j fun o => { o with items := items }, m, .ref j)

/-- `copy.deepcopy(v)` under a recursion limit. -/
def deepcopy (limit : Nat) (h : Heap) (v : Val) : Py (Heap × Val) := do
  let (h, _, w) ← deep limit h [] v
  .ok (h, w)

/-- The operations of a client program.  Objects are named by their number. -/
inductive Op where
  | newBunch (kw : Items)
  | newDict
  | newList (vs : List Val)
  | setAttr (i : Nat) (name : String) (v : Val)
  | delAttr (i : Nat) (name : String)
  | setItem (i : Nat) (k : Key) (v : Val)
  | delItem (i : Nat) (k : Key)
  | copy (i : Nat)
  | deepcopy (limit : Nat) (v : Val)

/-- A program can only use objects that exist. -/
def valid (h : Heap) : Val → Bool
  | .atom _ => true
  | .ref i => decide (i < h.length)

/-- One operation. -/
def step (h : Heap) : Op → Py Heap
  | .newBunch kw => if kw.all (fun e => valid h e.2) ∧ (kw.map (·.1)).Nodup then (init h kw).map (·.1) else .error .unmodelled
  | .newDict => .ok (h ++ [⟨.dict, [], 0⟩])
  | .newList vs =>
    if vs.all (valid h) then .ok (h ++ [⟨.list, vs.zipIdx.map fun e => (.num e.2, e.1), 0⟩]) else .error .unmodelled
  | .setAttr i name v => if valid h v then Bunch.setAttr h i name v else .error .unmodelled
  | .delAttr i name => Bunch.delAttr h i name
  | .setItem i k v => if valid h v then Bunch.setItem h i k v else .error .unmodelled
  | .delItem i k => Bunch.delItem h i k
  | .copy i => (Bunch.copy h i).map (·.1)
  | .deepcopy limit v => (Bunch.deepcopy limit h v).map (·.1)

/-- A program; an operation that raises an exception (which the program catches) leaves the heap
as it was. -/
def run (h : Heap) : List Op → Heap
  | [] => h
  | op :: r => run ((step h op).toOption.getD h) r

end Melodist.Bunch
