import Verif.Model.Heap
/-!
# What a reference stands for

`ObjTree` is the value of an object with everything it refers to, forgetting identities.  `Rep H v t fp` says: in the heap `H`, unfolding
the value `v` gives the tree `t`, and the objects met on the way, in order and as often as they are met, are `fp`.  So `fp.Nodup` says that
no object is met twice: no two places of the tree share a mutable object.
-/

namespace Genie

/-- The value of an object, with all it refers to. -/
inductive ObjTree where
  | none
  | int (i : Int)
  | float (x : PyFloat)
  | str (s : PyStr)
  | list (items : List ObjTree)
  | tuple (items : List ObjTree)
  | obj (cls : PyStr) (attrs : List (PyStr × ObjTree))
deriving Inhabited

mutual
/-- `v` unfolds to `t`, meeting the objects `fp`. -/
inductive Rep (H : Heap) : HVal → ObjTree → List Nat → Prop
  | none : Rep H .none .none []
  | int (i : Int) : Rep H (.int i) (.int i) []
  | float (x : PyFloat) : Rep H (.float x) (.float x) []
  | str (s : PyStr) : Rep H (.str s) (.str s) []
  | list {a : Nat} {vs : List HVal} {ts : List ObjTree} {fp : List Nat} :
      H[a]? = some (.list vs) → RepItems H vs ts fp → Rep H (.ref a) (.list ts) (a :: fp)
  | tuple {a : Nat} {vs : List HVal} {ts : List ObjTree} {fp : List Nat} :
      H[a]? = some (.tuple vs) → RepItems H vs ts fp → Rep H (.ref a) (.tuple ts) (a :: fp)
  | obj {a : Nat} {cls : PyStr} {vs : List (PyStr × HVal)} {ts : List (PyStr × ObjTree)} {fp : List Nat} :
      H[a]? = some (.record cls vs) → RepAttrs H vs ts fp → Rep H (.ref a) (.obj cls ts) (a :: fp)
/-- The same for the items of a list or tuple. -/
inductive RepItems (H : Heap) : List HVal → List ObjTree → List Nat → Prop
  | nil : RepItems H [] [] []
  | cons {v : HVal} {t : ObjTree} {fp : List Nat} {vs : List HVal} {ts : List ObjTree} {fps : List Nat} :
      Rep H v t fp → RepItems H vs ts fps → RepItems H (v :: vs) (t :: ts) (fp ++ fps)
/-- The same for the attributes of an instance. -/
inductive RepAttrs (H : Heap) : List (PyStr × HVal) → List (PyStr × ObjTree) → List Nat → Prop
  | nil : RepAttrs H [] [] []
  | cons {n : PyStr} {v : HVal} {t : ObjTree} {fp : List Nat} {vs : List (PyStr × HVal)} {ts : List (PyStr × ObjTree)}
      {fps : List Nat} :
      Rep H v t fp → RepAttrs H vs ts fps → RepAttrs H ((n, v) :: vs) ((n, t) :: ts) (fp ++ fps)
end

/-! ## places -/

/-- One step into an object: `.name` or `[i]`. -/
inductive PathStep where
  | attr (name : PyStr)
  | item (i : Nat)
deriving DecidableEq, Inhabited

/-- A chain of steps, such as `.techs[22].resource_costs[0]`. -/
abbrev ObjPath := List PathStep

namespace ObjTree

/-- The tree of the attribute `name`. -/
def attrOf (name : PyStr) : List (PyStr × ObjTree) → Option ObjTree
  | [] => Option.none
  | (n, t) :: rest => if n = name then some t else attrOf name rest

/-- The attributes, with `name` replaced. -/
def setAttrOf (name : PyStr) (u : ObjTree) : List (PyStr × ObjTree) → List (PyStr × ObjTree)
  | [] => []
  | (n, t) :: rest => if n = name then (n, u) :: rest else (n, t) :: setAttrOf name u rest

/-- What is one step away. -/
def child : ObjTree → PathStep → Option ObjTree
  | .obj _ ts, .attr n => attrOf n ts
  | .list ts, .item i => ts[i]?
  | .tuple ts, .item i => ts[i]?
  | _, _ => Option.none

/-- Replace what is one step away. -/
def setChild : ObjTree → PathStep → ObjTree → ObjTree
  | .obj c ts, .attr n, u => .obj c (setAttrOf n u ts)
  | .list ts, .item i, u => .list (ts.set i u)
  | .tuple ts, .item i, u => .tuple (ts.set i u)
  | t, _, _ => t

/-- What is at a place. -/
def get : ObjTree → ObjPath → Option ObjTree
  | t, [] => some t
  | t, st :: p =>
    match t.child st with
    | some u => u.get p
    | Option.none => Option.none

/-- The tree with a place replaced, everything else as it was. -/
def put : ObjTree → ObjPath → ObjTree → ObjTree
  | _, [], u => u
  | t, st :: p, u =>
    match t.child st with
    | some c => t.setChild st (c.put p u)
    | Option.none => t

/-- One step, with the exception Python raises when there is nothing there. -/
def step : ObjTree → PathStep → Py ObjTree
  | .obj _ ts, .attr n =>
    match attrOf n ts with
    | some t => .ok t
    | Option.none => .error .attributeError
  | _, .attr _ => .error .attributeError
  | .list ts, .item i =>
    match ts[i]? with
    | some t => .ok t
    | Option.none => .error .indexError
  | .tuple ts, .item i =>
    match ts[i]? with
    | some t => .ok t
    | Option.none => .error .indexError
  | _, .item _ => .error .typeError

/-- What an expression such as `.techs[22].resource_costs[0]` evaluates to, or the exception it raises. -/
def eval : ObjTree → ObjPath → Py ObjTree
  | t, [] => .ok t
  | t, st :: p =>
    match t.step st with
    | .ok u => u.eval p
    | .error e => .error e

/-- The tree after `o.name = v`, with `u` the value of `v`: an attribute that is not there is created, unless the name is one of the class. -/
def withAttr (u : ObjTree) (n : PyStr) : ObjTree → Py ObjTree
  | .obj c ts =>
    if (attrOf n ts).isSome then .ok (.obj c (setAttrOf n u ts))
    else if HReader.ofClass n then .error .attributeError else .ok (.obj c (ts ++ [(n, u)]))
  | _ => .error .attributeError

/-- The tree after `o[i] = v`, with `u` the value of `v`. -/
def withItem (u : ObjTree) (i : Nat) : ObjTree → Py ObjTree
  | .list ts => if i < ts.length then .ok (.list (ts.set i u)) else .error .indexError
  | _ => .error .typeError

/-- The tree after `o.append(v)`, with `u` the value of `v`. -/
def withAppended (u : ObjTree) : ObjTree → Py ObjTree
  | .list ts => .ok (.list (ts ++ [u]))
  | _ => .error .attributeError

/-- The tree after `o.pop()`. -/
def withoutLast : ObjTree → Py ObjTree
  | .list [] => .error .indexError
  | .list (t :: ts) => .ok (.list (t :: ts).dropLast)
  | _ => .error .attributeError

/-- The tree after `o.insert(i, v)`, with `u` the value of `v`. -/
def withInserted (u : ObjTree) (i : Nat) : ObjTree → Py ObjTree
  | .list ts => .ok (.list (ts.take i ++ [u] ++ ts.drop i))
  | _ => .error .attributeError

/-- The tree after `del o[i]`. -/
def withoutItem (i : Nat) : ObjTree → Py ObjTree
  | .list ts => if i < ts.length then .ok (.list (ts.take i ++ ts.drop (i + 1))) else .error .indexError
  | _ => .error .typeError

/-- The tree after `del o[i:j]`. -/
def withoutSlice (i j : Nat) : ObjTree → Py ObjTree
  | .list ts => .ok (.list (ts.take i ++ ts.drop (max i j)))
  | _ => .error .typeError

end ObjTree

/-- What is one step away from a value in the heap. -/
def Heap.step (H : Heap) (v : HVal) (st : PathStep) : Option HVal :=
  match v with
  | .ref a =>
    match H[a]?, st with
    | some (.record _ vs), .attr n => HReader.lookup n vs
    | some (.list vs), .item i => vs[i]?
    | some (.tuple vs), .item i => vs[i]?
    | _, _ => none
  | _ => none

/-- Follow a chain of steps. -/
def Heap.follow (H : Heap) (v : HVal) : ObjPath → Option HVal
  | [] => some v
  | st :: p =>
    match H.step v st with
    | some w => H.follow w p
    | none => none

/-- `v` is the root of a tree of objects with value `t`: unfolding it gives `t` and no object is met twice. -/
def IsTree (H : Heap) (v : HVal) (t : ObjTree) : Prop := ∃ fp, Rep H v t fp ∧ fp.Nodup

end Genie
