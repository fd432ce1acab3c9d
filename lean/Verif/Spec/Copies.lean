import Verif.Spec.Sharing
import Verif.Model.HeapCopy
/-!
# What copies mean on values
-/

namespace Genie
open ObjTree

mutual
/-- Numbers, strings, `None`, and tuples of such: nothing in it can be changed in place. -/
inductive ObjTree.Immutable : ObjTree → Prop
  | none : Immutable .none
  | int (i : Int) : Immutable (.int i)
  | float (x : PyFloat) : Immutable (.float x)
  | str (s : PyStr) : Immutable (.str s)
  | tuple {ts : List ObjTree} : ImmutableItems ts → Immutable (.tuple ts)
/-- The elements. -/
inductive ObjTree.ImmutableItems : List ObjTree → Prop
  | nil : ImmutableItems []
  | cons {t : ObjTree} {ts : List ObjTree} : Immutable t → ImmutableItems ts → ImmutableItems (t :: ts)
end

/-- The value of a right-hand side: a copy has the value of the original. -/
def Source.onTree (depth : Nat) (t : ObjTree) : Source → Py ObjTree
  | .new value => .ok value
  | .copy place =>
    match t.eval place with
    | .ok u => if u.height ≤ depth then .ok u else .error .recursionError
    | .error e => .error e
  | .share place => t.eval place

/-- What a statement means if values are all that matters: one place of the tree is replaced. -/
def Command.onTree (depth : Nat) (c : Command) (t : ObjTree) : Py ObjTree :=
  match c.source.onTree depth t with
  | .error e => .error e
  | .ok v =>
    match t.eval c.place with
    | .error e => .error e
    | .ok u =>
      match c.stmt.onTree v u with
      | .error e => .error e
      | .ok u' => .ok (t.put c.place u')

/-- What a program means if values are all that matters. -/
def commandTree (depth : Nat) : List Command → ObjTree → Py ObjTree
  | [], t => .ok t
  | c :: cs, t =>
    match c.onTree depth t with
    | .ok t' => commandTree depth cs t'
    | .error e => .error e

/-- The program, run on `t`, puts an existing object in a second place (`x.f = y`, without a copy) only when it is immutable. -/
def Separate (depth : Nat) : List Command → ObjTree → Prop
  | [], _ => True
  | c :: cs, t =>
    (∀ p u, c.source = .share p → t.eval p = .ok u → u.Immutable) ∧ ∀ t', c.onTree depth t = .ok t' → Separate depth cs t'

end Genie
