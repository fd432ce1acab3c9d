import Verif.Model.HeapReaders
import Verif.Spec.Objects
import Verif.Py.Json
/-!
# Programs of a user, on objects

`data.techs[22].resource_costs` and the like, the statements that change an object in place, and the two programs of `/repo/README.md`,
statement by statement.
-/

namespace Genie
namespace HReader

/-- Evaluate an expression such as `o.techs[22].resource_costs[0]` (Python): one attribute access or subscription after the other. -/
def eval (o : HVal) : ObjPath → HReader HVal
  | [] => pure o
  | .attr name :: p => do
    let o ← getAttr o name
    eval o p
  | .item i :: p => do
    let o ← getItem o i
    eval o p

end HReader

/-- A statement that changes an object `o` in place, with the value it puts there. -/
inductive Stmt where
  | setAttr (name : PyStr)
  | setItem (i : Nat)
  | append
  | pop
  | insert (i : Nat)
  | delItem (i : Nat)
  | delSlice (i j : Nat)
deriving DecidableEq, Inhabited

/-- `o.name = v`, `o[i] = v`, `o.append(v)`, `o.pop()`, `o.insert(i, v)`, `del o[i]`, `del o[i:j]` (Python). -/
def Stmt.run (o : HVal) (v : HVal) : Stmt → HReader PUnit
  | .setAttr name => HReader.setAttr o name v
  | .setItem i => HReader.setItem o i v
  | .append => HReader.append o v
  | .pop => HReader.pop o
  | .insert i => HReader.insert o i v
  | .delItem i => HReader.delItem o i
  | .delSlice i j => HReader.delSlice o i j

namespace HReader

mutual
/-- Evaluate an expression that creates an object with this value: literals, `[…]`, `(…, …)` and `Class(…)` (Python), inner ones first. -/
def new : ObjTree → HReader HVal
  | .none => pure .none
  | .int i => pure (.int i)
  | .float x => pure (.float x)
  | .str s => pure (.str s)
  | .list ts => do
    let items ← newItems ts
    alloc (.list items)
  | .tuple ts => do
    let items ← newItems ts
    alloc (.tuple items)
  | .obj cls ts => do
    let attrs ← newAttrs ts
    alloc (.record cls attrs)
/-- One after the other. -/
def newItems : List ObjTree → HReader (List HVal)
  | [] => pure []
  | t :: ts => do
    let v ← new t
    let vs ← newItems ts
    return v :: vs
/-- One after the other. -/
def newAttrs : List (PyStr × ObjTree) → HReader (List (PyStr × HVal))
  | [] => pure []
  | (n, t) :: ts => do
    let v ← new t
    let vs ← newAttrs ts
    return (n, v) :: vs
end

end HReader

/-- One statement of a program: `place` is the expression before the last `.name`, `[i]`, `.append` or `.pop`, `value` the value of the
expression on the right or in the parentheses. -/
structure Edit where
  place : ObjPath
  stmt : Stmt
  value : ObjTree
deriving Inhabited

/-- Run a program on `data`; the first exception ends it.  (In `o.append(v)` Python evaluates `o` before `v`; evaluating `v` creates
objects but cannot raise, so the order shows in the addresses only.) -/
def runEdits (data : HVal) : List Edit → HReader PUnit
  | [] => pure ()
  | e :: es => do
    let v ← HReader.new e.value
    let o ← HReader.eval data e.place
    e.stmt.run o v
    runEdits data es

namespace HReader

/-- `data.techs[22].resource_costs[0].amount = 69` — `/repo/README.md:37`. -/
def changeLoom (data : HVal) : HReader PUnit := do
  let techs ← getAttr data (lit "techs")
  let tech ← getItem techs 22
  let resource_costs ← getAttr tech (lit "resource_costs")
  let cost ← getItem resource_costs 0
  setAttr cost (lit "amount") (.int 69)

/-- `civ.units[434].bird.tasks.pop()` — `/repo/README.md:48`. -/
def popKingTask (civ : HVal) : HReader PUnit := do
  let units ← getAttr civ (lit "units")
  let unit ← getItem units 434
  let bird ← getAttr unit (lit "bird")
  let tasks ← getAttr bird (lit "tasks")
  pop tasks

/-- `for civ in civs: …` from index `i` on, for `n` elements: the list iterator fetches one element after the other. -/
def popKingTasks (civs : HVal) : Nat → Nat → HReader PUnit
  | _, 0 => pure ()
  | i, n + 1 => do
    let civ ← getItem civs i
    popKingTask civ
    popKingTasks civs (i + 1) n

/-- `for civ in data.civs: civ.units[434].bird.tasks.pop()` — `/repo/README.md:47-48`.  (The number of iterations is the length of the
list at the start: the body does not change that list.) -/
def changeKings (data : HVal) : HReader PUnit := do
  let civs ← getAttr data (lit "civs")
  let n ← len civs
  popKingTasks civs 0 n

end HReader

mutual
/-- `dataclasses.asdict(o)` of an object with this value (Python standard library): instances become dictionaries, in the order of their
fields, lists and tuples are rebuilt element by element (`json.dump` prints both as arrays, so both are `PyTree.list`), the rest is kept. -/
def ObjTree.asdict : ObjTree → PyTree
  | .none => .none
  | .int i => .int i
  | .float x => .float x
  | .str s => .str s
  | .list ts => .list (asdictItems ts)
  | .tuple ts => .list (asdictItems ts)
  | .obj _ ts => .dict (asdictAttrs ts)
/-- `asdict` of the elements. -/
def ObjTree.asdictItems : List ObjTree → List PyTree
  | [] => []
  | t :: ts => t.asdict :: asdictItems ts
/-- `asdict` of the attributes. -/
def ObjTree.asdictAttrs : List (PyStr × ObjTree) → List (PyStr × PyTree)
  | [] => []
  | (n, t) :: ts => (n, t.asdict) :: asdictAttrs ts
end

end Genie
