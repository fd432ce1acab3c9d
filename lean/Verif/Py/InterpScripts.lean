import Verif.Py.InterpIo
import Verif.Model.HeapScripts
/-!
# Scripts, with `parse` and `save` executed from their source

The scripts of C56: whatever they do to objects is done by Python itself (`o.name = v`, `l.append(v)`, …); what they call of the package —
`DatFile.parse(p)` and `o.save(p)` — is executed from its source, by the interpreter of C62.
-/

namespace Genie.Src

/-- What a call leaves behind and returns, for a script that knows these objects. -/
def resume (names : List HVal) : World × Outcome IVal → Outcome Seen × Situation Memory
  | (w, .returned (.p (.h v))) => (.returned (Memory.hand w.heap names v).1, ⟨w.disk, (Memory.hand w.heap names v).2⟩)
  | (w, .returned _) => (.raised .typeError, ⟨w.disk, ⟨w.heap, names⟩⟩)
  | (w, .raised e) => (.raised e, ⟨w.disk, ⟨w.heap, names⟩⟩)
  | (w, .crashed) => (.crashed, ⟨w.disk, ⟨w.heap, names⟩⟩)

/-- What a script does, with room for `room` nested calls of functions of the package (and `depth` ones in `copy.deepcopy`) —
`/repo/src/genieutils/datfile.py:45-55`, executed.  The method `save` is looked up in the class of the object: only `DatFile` has one. -/
def act (P : Platform) (room depth : Nat) (S : Situation Memory) : Action → Outcome Seen × Situation Memory
  | .op o => S.act P.zlib P.env depth (.op o)
  | .parse p => resume S.memory.names (callIo P room n!"DatFile" n!"parse" [.p (.cls n!"DatFile"), .path p] ⟨S.disk, S.memory.heap, [], []⟩)
  | .save o p =>
    if isDatFile S.memory.heap (named S.memory.names o) then
      resume S.memory.names (callIo P room n!"DatFile" n!"save" [.p (.h (named S.memory.names o)), .path p] ⟨S.disk, S.memory.heap, [], []⟩)
    else (.raised .attributeError, S)

/-- One action of a script; a script that has ended stays as it is. -/
def step (script : Script σ α) (P : Platform) (room depth : Nat) : Status σ Memory → Status σ Memory
  | .crashed disk => .crashed disk
  | .running st S =>
    match script st with
    | .stop _ => .running st S
    | .call a next =>
      match act P room depth S a with
      | (.returned v, S') => .running (next (.ok v)) S'
      | (.raised e, S') => .running (next (.error e)) S'
      | (.crashed, S') => .crashed S'.disk

/-- The first `n` actions of a script; `P i` is the platform during the one with number `i`. -/
def runScript (script : Script σ α) (P : Nat → Platform) (room depth : Nat) : Nat → Status σ Memory → Status σ Memory
  | 0, st => st
  | n + 1, st => step script (P n) room depth (runScript script P room depth n st)

/-- A program from beginning to end, from the moment `i` on. -/
def execProg (P : Nat → Platform) (room depth : Nat) : Prog α → Nat → Situation Memory → Outcome α × Nat × Situation Memory
  | .done a, i, S => (.returned a, i, S)
  | .raised e, i, S => (.raised e, i, S)
  | .act a next handler, i, S =>
    match act (P i) room depth S a with
    | (.returned v, S') => execProg P room depth (next v) (i + 1) S'
    | (.raised e, S') => execProg P room depth (handler e) (i + 1) S'
    | (.crashed, S') => (.crashed, i + 1, S')

end Genie.Src
