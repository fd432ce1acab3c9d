import Verif.Spec.Programs
/-!
# Objects that are referenced from several places
-/

namespace Genie

/-- The tree with the same new part at several places. -/
def ObjTree.putAll (u : ObjTree) (places : List ObjPath) (t : ObjTree) : ObjTree := places.foldl (fun t p => t.put p u) t

mutual
/-- No instance in the tree has two attributes of the same name (a Python object never does). -/
inductive ObjTree.Named : ObjTree → Prop
  | none : Named .none
  | int (i : Int) : Named (.int i)
  | float (x : PyFloat) : Named (.float x)
  | str (s : PyStr) : Named (.str s)
  | list {ts : List ObjTree} : NamedItems ts → Named (.list ts)
  | tuple {ts : List ObjTree} : NamedItems ts → Named (.tuple ts)
  | obj {c : PyStr} {ts : List (PyStr × ObjTree)} : (ts.map (·.1)).Nodup → NamedAttrs ts → Named (.obj c ts)
/-- The elements. -/
inductive ObjTree.NamedItems : List ObjTree → Prop
  | nil : NamedItems []
  | cons {t : ObjTree} {ts : List ObjTree} : Named t → NamedItems ts → NamedItems (t :: ts)
/-- The attributes. -/
inductive ObjTree.NamedAttrs : List (PyStr × ObjTree) → Prop
  | nil : NamedAttrs []
  | cons {n : PyStr} {t : ObjTree} {ts : List (PyStr × ObjTree)} : Named t → NamedAttrs ts → NamedAttrs ((n, t) :: ts)
end

mutual
/-- How many objects are nested in one another. -/
def ObjTree.height : ObjTree → Nat
  | .list ts => heightItems ts + 1
  | .tuple ts => heightItems ts + 1
  | .obj _ ts => heightAttrs ts + 1
  | _ => 1
/-- The highest element. -/
def ObjTree.heightItems : List ObjTree → Nat
  | [] => 0
  | t :: ts => max t.height (heightItems ts)
/-- The highest attribute. -/
def ObjTree.heightAttrs : List (PyStr × ObjTree) → Nat
  | [] => 0
  | (_, t) :: ts => max t.height (heightAttrs ts)
end

/-- The object at this address can be changed in place: it is a list or an instance. -/
def Heap.Mutable (H : Heap) (a : Nat) : Prop := ∃ c, H[a]? = some c ∧ ∀ items, c ≠ .tuple items

end Genie
