import Verif.Spec.Objects
/-!
# Objects that look the same

What a program that only reads can see of an object: numbers and strings, the kind and length of a list or tuple, the class of an instance
and the names of its attributes; and the same for everything that it can get at by attribute accesses and subscriptions.  Neither the
identity of objects nor the cells nobody can get at can be seen.  Objects need not be trees: there may be sharing and cycles.
-/

namespace Genie

/-- What is seen of an object without going into it. -/
inductive Shape where
  | none
  | int (i : Int)
  | float (x : PyFloat)
  | str (s : PyStr)
  | list (length : Nat)
  | tuple (length : Nat)
  | obj (cls : PyStr) (names : List PyStr)
  /-- A reference to nothing (there are none in Python). -/
  | nothing
deriving DecidableEq, Inhabited

/-- The shape of a value. -/
def Heap.shape (H : Heap) : HVal → Shape
  | .none => .none
  | .int i => .int i
  | .float x => .float x
  | .str s => .str s
  | .ref a =>
    match H[a]? with
    | some (.list vs) => .list vs.length
    | some (.tuple vs) => .tuple vs.length
    | some (.record c vs) => .obj c (vs.map (·.1))
    | Option.none => .nothing

/-- Two values, each in its heap, that look the same from every place. -/
def Alike (H1 : Heap) (v : HVal) (H2 : Heap) (w : HVal) : Prop := ∀ p, (H1.follow v p).map H1.shape = (H2.follow w p).map H2.shape

end Genie
