import Verif.Model.Bunch

/-!
# What a program can observe of Bunch objects
-/

namespace Melodist.Spec

open Melodist.Bunch

/-- Object `i` exists and is a Bunch. -/
def IsBunch (h : Heap) (i : Nat) : Prop := ∃ o, h[i]? = some o ∧ o.kind = .bunch

/-- The items of object `i`. -/
def itemsOf (h : Heap) (i : Nat) : Items := ((h[i]?).map (·.items)).getD []

/-- The value reached from `v` by a chain of item accesses `v[k₁][k₂]...`; `none` if one of the
accesses fails. -/
def reach (h : Heap) (v : Val) : List Key → Option Val
  | [] => some v
  | k :: p =>
    match v with
    | .atom _ => none
    | .ref i => match lookup k (itemsOf h i) with
      | none => none
      | some w => reach h w p

/-- What can be seen of a value without following references: an immutable value, or the kind of
object and its keys in order. -/
inductive Shape where
  | atom (n : Int)
  | object (kind : Kind) (keys : List Key)
  | dangling
deriving DecidableEq

def shape (h : Heap) : Val → Shape
  | .atom n => .atom n
  | .ref i => match h[i]? with
    | none => .dangling
    | some o => .object o.kind (o.items.map (·.1))

/-- Everything that can be read from `v`: the shape found at the end of each chain of accesses. -/
def look (h : Heap) (v : Val) (p : List Key) : Option Shape := (reach h v p).map (shape h)

/-- The object an operation writes to, if it changes an existing object. -/
def writes : Op → Option Nat
  | .setAttr i _ _ => some i
  | .delAttr i _ => some i
  | .setItem i _ _ => some i
  | .delItem i _ => some i
  | _ => none

end Melodist.Spec
