import Verif.Model.HeapPrograms
/-!
# What a program of in-place statements means on values
-/

namespace Genie
open ObjTree

/-- What a statement does to the tree of the object it is applied to. -/
def Stmt.onTree (u : ObjTree) : Stmt → ObjTree → Py ObjTree
  | .setAttr n => withAttr u n
  | .setItem i => withItem u i
  | .append => withAppended u
  | .pop => withoutLast
  | .insert i => withInserted u i
  | .delItem i => withoutItem i
  | .delSlice i j => withoutSlice i j

/-- What a program means on values: each statement replaces one place of the tree (`ObjTree.put`) and nothing else; the first exception
ends it. -/
def editTree : List Edit → ObjTree → Py ObjTree
  | [], t => .ok t
  | e :: es, t =>
    match t.eval e.place with
    | .ok u =>
      match e.stmt.onTree e.value u with
      | .ok u' => editTree es (t.put e.place u')
      | .error x => .error x
    | .error x => .error x

end Genie
