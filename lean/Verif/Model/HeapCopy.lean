import Verif.Model.HeapPrograms
/-!
# Copies and shared objects

`copy.deepcopy` of the standard library on objects of this package, and statements whose right-hand side is an object that exists already:
`data.civs[1].units[4] = copy.deepcopy(data.civs[0].units[4])`, or the same without the copy.
-/

namespace Genie

/-- The `memo` of `copy.deepcopy`: for every object copied so far, its copy. -/
abbrev Memo := List (Nat × HVal)

/-- `memo.get(id(x))`. -/
def Memo.find (a : Nat) : Memo → Option HVal
  | [] => none
  | (b, w) :: rest => if b = a then some w else find a rest

namespace HReader

/-- Copy one value after the other. -/
def copyItems (rec : HVal → Memo → HReader (HVal × Memo)) : List HVal → Memo → HReader (List HVal × Memo)
  | [], M => pure ([], M)
  | v :: vs, M => do
    let (w, M) ← rec v M
    let (ws, M) ← copyItems rec vs M
    return (w :: ws, M)

/-- Copy one attribute after the other. -/
def copyAttrs (rec : HVal → Memo → HReader (HVal × Memo)) : List (PyStr × HVal) → Memo → HReader (List (PyStr × HVal) × Memo)
  | [], M => pure ([], M)
  | (n, v) :: vs, M => do
    let (w, M) ← rec v M
    let (ws, M) ← copyAttrs rec vs M
    return ((n, w) :: ws, M)

/-- `copy.deepcopy(v, memo)` (Python standard library, `copy.py`), with room for `depth` nested calls.  `None` and numbers and strings are
their own copies; a list or an instance is created empty, entered in the memo, and then filled with copies; the elements of a tuple are
copied first, and if all of them are their own copies the tuple is its own copy, too.  (A list is filled in one go here: nobody looks at
it in between.) -/
def deepcopy : Nat → HVal → Memo → HReader (HVal × Memo)
  | 0, _, _ => raise .recursionError
  | depth + 1, v, M =>
    match v with
    | .ref a =>
      match M.find a with
      | some w => pure (w, M)
      | none => do
        let c ← cell v .typeError
        match c with
        | .list items => do
          let y ← alloc (.list [])
          let (copies, M) ← copyItems (deepcopy depth) items ((a, y) :: M)
          update y (.list copies)
          return (y, M)
        | .record cls attrs => do
          let y ← alloc (.record cls [])
          let (copies, M) ← copyAttrs (deepcopy depth) attrs ((a, y) :: M)
          update y (.record cls copies)
          return (y, M)
        | .tuple items => do
          let (copies, M) ← copyItems (deepcopy depth) items M
          match M.find a with
          | some w => pure (w, M)
          | none =>
            if copies = items then pure (v, M)
            else do
              let y ← alloc (.tuple copies)
              return (y, (a, y) :: M)
    | v => pure (v, M)

end HReader

/-- The right-hand side of a statement. -/
inductive Source where
  /-- An expression that creates a new object with this value. -/
  | new (value : ObjTree)
  /-- `copy.deepcopy(…)` of the object at a place. -/
  | copy (place : ObjPath)
  /-- The object at a place itself. -/
  | share (place : ObjPath)
deriving Inhabited

/-- A statement of a program, with any of these right-hand sides. -/
structure Command where
  place : ObjPath
  stmt : Stmt
  source : Source
deriving Inhabited

/-- Evaluate the right-hand side. -/
def Source.eval (depth : Nat) (data : HVal) : Source → HReader HVal
  | .new value => HReader.new value
  | .copy place => do
    let o ← HReader.eval data place
    let (v, _) ← HReader.deepcopy depth o []
    return v
  | .share place => HReader.eval data place

/-- Run a statement on `data`: the right-hand side first, then the place.  (In `o.append(v)` Python evaluates `o.append` before `v`; when both
raise, the exception is the other one.) -/
def Command.run (depth : Nat) (data : HVal) (c : Command) : HReader PUnit := do
  let v ← c.source.eval depth data
  let o ← HReader.eval data c.place
  c.stmt.run o v

/-- Run a program on `data`; the first exception ends it.  (`data` may be a list of several files.) -/
def runCommands (depth : Nat) (data : HVal) : List Command → HReader PUnit
  | [] => pure ()
  | c :: cs => do
    c.run depth data
    runCommands depth data cs

end Genie
