import Verif.Model.Io
/-!
# The two programs of `/repo/README.md`, with the exceptions Python raises

An in-place edit is a new value here; C45 proves that the same programs on objects, edited in place, do the same.  An uncaught exception ends the program; `save` is its last statement.
-/

namespace Genie

/-- `xs[i]` with `0 ≤ i`: `IndexError` if there is no such element (Python). -/
def getItem (xs : List α) (i : Nat) : Py α :=
  match xs[i]? with
  | some x => .ok x
  | none => .error .indexError

/-- `o.…` where `o` may be `None`: `AttributeError` (Python). -/
def notNone (o : Option α) : Py α :=
  match o with
  | some x => .ok x
  | none => .error .attributeError

/-- What is left of a list after `xs.pop()`: `IndexError: pop from empty list` (Python). -/
def popped (xs : List α) : Py (List α) :=
  match xs with
  | [] => .error .indexError
  | x :: xs => .ok (x :: xs).dropLast

/-- `data.techs[22].resource_costs[0].amount = 69` — `/repo/README.md:37`. -/
def changeLoom (data : DatFile) : Py DatFile := do
  let tech ← getItem data.techs 22
  let cost ← getItem tech.resource_costs 0
  return { data with techs := data.techs.set 22 { tech with
    resource_costs := tech.resource_costs.set 0 { cost with amount := 69 } } }

/-- `civ.units[434].bird.tasks.pop()` — `/repo/README.md:48`. -/
def popKingTask (civ : Civ) : Py Civ := do
  let unit ← getItem civ.units 434
  let unit ← notNone unit
  let bird ← notNone unit.bird
  let tasks ← popped bird.tasks
  return { civ with units := civ.units.set 434 (some { unit with bird := some { bird with tasks := tasks } }) }

/-- `for civ in data.civs: …` — `/repo/README.md:47-48`: one civ after the other, the first exception ends the program. -/
def changeKings (data : DatFile) : Py DatFile := do
  let civs ← data.civs.mapM popKingTask
  return { data with civs := civs }

/-- `data = DatFile.parse(src)`, some edit of `data`, `data.save(dst)` — `/repo/README.md:36-38,46-49`. -/
def editFile (edit : DatFile → Py DatFile) (z : Zlib) (env : Environment) (fs : FileSystem) (src dst : Path) :
    FileSystem × Outcome PUnit :=
  match DatFile.parse z fs src with
  | .raised e => (fs, .raised e)
  | .crashed => (fs, .crashed)
  | .returned data =>
    match edit data with
    | .error e => (fs, .raised e)
    | .ok data => DatFile.save z env fs data dst

end Genie
