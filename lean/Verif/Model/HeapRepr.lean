import Verif.Model.HeapEq
import Verif.Py.Repr
/-!
# `repr` of objects

Every class is `@dataclass(slots=True)`, which generates `__repr__` (the option `repr` is not switched off anywhere): the name of the class and
`name=value` for the fields that the class declares, in their order, where `value` is the `repr` of the attribute.  `print(o)` writes the same
text.  An object that is met inside itself is shown as `...`, `[...]` or `(...)`.
-/

namespace Genie
namespace W

/-- `', '.join(repr(v) for v in vs)`. -/
def reprItems (rec : HVal → Py PyStr) : List HVal → Py PyStr
  | [] => .ok []
  | [v] => rec v
  | v :: w :: ws =>
    match rec v with
    | .error e => .error e
    | .ok a =>
      match reprItems rec (w :: ws) with
      | .error e => .error e
      | .ok b => .ok (a ++ (lit ", " ++ b))

/-- `f'{name}={self.name!r}'`. -/
def reprField (rec : HVal → Py PyStr) (attrs : List (PyStr × HVal)) (n : PyStr) : Py PyStr :=
  match HReader.lookup n attrs with
  | some v =>
    match rec v with
    | .error e => .error e
    | .ok a => .ok (n ++ (lit "=" ++ a))
  | none => .error .attributeError

/-- `', '.join(f'{name}={self.name!r}' for …)`. -/
def reprFields (rec : HVal → Py PyStr) (attrs : List (PyStr × HVal)) : List PyStr → Py PyStr
  | [] => .ok []
  | [n] => reprField rec attrs n
  | n :: m :: ms =>
    match reprField rec attrs n with
    | .error e => .error e
    | .ok a =>
      match reprFields rec attrs (m :: ms) with
      | .error e => .error e
      | .ok b => .ok (a ++ (lit ", " ++ b))

/-- `repr(v)` (Python: `dataclasses`, `list.__repr__`, `tuple.__repr__`), with room for `depth` nested calls; `path` are the objects whose `repr` is
under way.  The names of the classes and fields are those of `/repo/src/genieutils` (`fieldNames`). -/
def repr (digits : Json.FloatRepr) (printable : Nat → Bool) (H : Heap) : Nat → List Nat → HVal → Py PyStr
  | 0, _, _ => .error .recursionError
  | _ + 1, _, .none => .ok (lit "None")
  | _ + 1, _, .int i => .ok (Json.intRepr i)
  | _ + 1, _, .float x => .ok (PyRepr.floatRepr digits x)
  | _ + 1, _, .str s => .ok (PyRepr.strRepr printable s)
  | depth + 1, path, .ref a =>
    match H[a]? with
    | some (.list []) => .ok (lit "[]")
    | some (.list vs) =>
      if a ∈ path then .ok (lit "[...]")
      else
        match reprItems (repr digits printable H depth (a :: path)) vs with
        | .error e => .error e
        | .ok s => .ok (lit "[" ++ (s ++ lit "]"))
    | some (.tuple []) => .ok (lit "()")
    | some (.tuple vs) =>
      if a ∈ path then .ok (lit "(...)")
      else
        match reprItems (repr digits printable H depth (a :: path)) vs with
        | .error e => .error e
        | .ok s => .ok (lit "(" ++ (s ++ (if vs.length = 1 then lit ",)" else lit ")")))
    | some (.record cls attrs) =>
      if a ∈ path then .ok (lit "...")
      else
        match fieldNames cls with
        | none => .error .typeError
        | some ns =>
          match reprFields (repr digits printable H depth (a :: path)) attrs ns with
          | .error e => .error e
          | .ok s => .ok (cls ++ (lit "(" ++ (s ++ lit ")")))
    | none => .error .typeError

end W
end Genie
