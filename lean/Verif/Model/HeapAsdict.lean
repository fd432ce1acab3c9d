import Verif.Model.HeapEq
import Verif.Model.HeapPrograms
/-!
# `dataclasses.asdict` of objects

`dataclasses.asdict(o)` as `/repo/src/genieutils/scripts.py:19` calls it (Python standard library, `dataclasses._asdict_inner`): the fields that the
class declares, in their order, with the attributes' values converted the same way; lists and tuples are rebuilt; everything else is copied
(numbers, strings and `None` are their own copies).  Other attributes are left out.
-/

namespace Genie
namespace W

/-- `[_asdict_inner(v) for v in vs]`. -/
def asdictItems (rec : HVal → Py PyTree) : List HVal → Py (List PyTree)
  | [] => .ok []
  | v :: vs =>
    match rec v with
    | .error e => .error e
    | .ok a =>
      match asdictItems rec vs with
      | .error e => .error e
      | .ok b => .ok (a :: b)

/-- `(f.name, _asdict_inner(getattr(obj, f.name)))` for the fields. -/
def asdictFields (rec : HVal → Py PyTree) (attrs : List (PyStr × HVal)) : List PyStr → Py (List (PyStr × PyTree))
  | [] => .ok []
  | n :: ns =>
    match HReader.lookup n attrs with
    | none => .error .attributeError
    | some v =>
      match rec v with
      | .error e => .error e
      | .ok a =>
        match asdictFields rec attrs ns with
        | .error e => .error e
        | .ok b => .ok ((n, a) :: b)

/-- `_asdict_inner(v, dict)`, with room for `depth` nested calls.  (A tuple is rebuilt as a tuple; both print as arrays, so both are `PyTree.list`.) -/
def asdictInner (H : Heap) : Nat → HVal → Py PyTree
  | 0, _ => .error .recursionError
  | _ + 1, .none => .ok .none
  | _ + 1, .int i => .ok (.int i)
  | _ + 1, .float x => .ok (.float x)
  | _ + 1, .str s => .ok (.str s)
  | depth + 1, .ref a =>
    match H[a]? with
    | some (.list vs) =>
      match asdictItems (asdictInner H depth) vs with
      | .error e => .error e
      | .ok ts => .ok (.list ts)
    | some (.tuple vs) =>
      match asdictItems (asdictInner H depth) vs with
      | .error e => .error e
      | .ok ts => .ok (.list ts)
    | some (.record cls attrs) =>
      match fieldNames cls with
      | none => .error .typeError
      | some ns =>
        match asdictFields (asdictInner H depth) attrs ns with
        | .error e => .error e
        | .ok ts => .ok (.dict ts)
    | none => .error .typeError

/-- `dataclasses.asdict(v)`: `TypeError` for everything but instances. -/
def asdict (H : Heap) (depth : Nat) (v : HVal) : Py PyTree :=
  match W.cell H v with
  | some (.record _ _) => asdictInner H depth v
  | _ => .error .typeError

end W
end Genie
