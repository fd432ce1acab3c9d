import Verif.Model.HeapCopy
import Verif.Model.HeapIo
/-!
# Scripts: programs with variables, conditions and loops

A script of a user is any program whatsoever.  What it can do with the objects of this package is a fixed list of operations (`Op`): read
an attribute or an element, ask for a length or an identity, change an object in place, create an object, copy one.  Everything else — its
variables, arithmetic, conditions, loops, `try`/`except` — is its own affair: a `Script` is any function from the state the script is in
to its next operation and, from the answer or exception of that operation, to its next state.  Scripts that never end are included.  The
other things it can do are to load files and to save them.

The objects a script has got to know are named by numbers, in the order in which it got them (its variables hold such numbers, numbers
and strings of Python are handed out as they are).
-/

namespace Genie

/-- `type(o)` of an object. -/
inductive Kind where
  | list
  | tuple
  | instance (cls : PyStr)
deriving DecidableEq, Inhabited

/-- `type(o)`. -/
def Cell.kind : Cell → Kind
  | .list _ => .list
  | .tuple _ => .tuple
  | .record cls _ => .instance cls

/-- What a script sees of a value: a scalar, or an object, of which it sees the type and which it can use from now on as number `h`. -/
inductive Seen where
  | none
  | int (i : Int)
  | float (x : PyFloat)
  | str (s : PyStr)
  | object (h : Nat) (kind : Kind)
deriving DecidableEq, Inhabited

/-- What a script hands to an operation: a scalar, or an object it has got to know.  (A number that it has not got is `None`.) -/
inductive Arg where
  | none
  | int (i : Int)
  | float (x : PyFloat)
  | str (s : PyStr)
  | object (h : Nat)
deriving DecidableEq, Inhabited

/-- What a script can do with objects: `o.name`, `o[i]`, `len(o)`, `o is o'`, `o.name = v`, `o[i] = v`, `o.append(v)`, `o.insert(i, v)`,
`o.pop(i)`, `del o[i]`, `del o[i:j]`, `[v, …]`, `(v, …)`, `Class(name=v, …)` with every attribute given, `copy.deepcopy(o)`, `o[i:j]`, `o.extend(p)`,
`copy.copy(o)`. -/
inductive Op where
  | getAttr (o : Nat) (name : PyStr)
  | getItem (o : Nat) (i : Int)
  | len (o : Nat)
  | same (o o' : Nat)
  | setAttr (o : Nat) (name : PyStr) (v : Arg)
  | setItem (o : Nat) (i : Int) (v : Arg)
  | append (o : Nat) (v : Arg)
  | insert (o : Nat) (i : Int) (v : Arg)
  | pop (o : Nat) (i : Int)
  | delItem (o : Nat) (i : Int)
  | delSlice (o : Nat) (i j : Int)
  | newList (vs : List Arg)
  | newTuple (vs : List Arg)
  | new (cls : PyStr) (vs : List (PyStr × Arg))
  | deepcopy (o : Nat)
  | slice (o : Nat) (i j : Int)
  | extend (o p : Nat)
  | copy (o : Nat)
deriving Inhabited

/-- The position a Python index means in a list or tuple of length `n`, if there is one: `i + n` if `i` is negative. -/
def pyIndex (n : Nat) (i : Int) : Option Nat :=
  let j := if i < 0 then i + n else i
  if 0 ≤ j ∧ j < n then some j.toNat else none

/-- The position a bound of a slice, or the index of `insert`, means: `i + n` if `i` is negative, and then the nearest one from 0 to `n`. -/
def pyBound (n : Nat) (i : Int) : Nat :=
  let j := if i < 0 then i + n else i
  if j < 0 then 0 else if (n : Int) < j then n else j.toNat

namespace HReader

/-- `o[i]` of a list or tuple (Python), for any index. -/
def getItemAt (o : HVal) (i : Int) : HReader HVal := do
  let c ← cell o .typeError
  match c with
  | .record _ _ => raise .typeError
  | .list items | .tuple items =>
    match pyIndex items.length i with
    | none => raise .indexError
    | some j =>
      match items[j]? with
      | some v => pure v
      | none => raise .indexError

/-- `o[i] = v` (Python), for any index; tuples and instances raise `TypeError`. -/
def setItemAt (o : HVal) (i : Int) (v : HVal) : HReader HVal := do
  let c ← cell o .typeError
  match c with
  | .list items =>
    match pyIndex items.length i with
    | none => raise .indexError
    | some j => do
      update o (.list (items.set j v))
      return .none
  | _ => raise .typeError

/-- `o.insert(i, v)` of a list (Python), for any index; tuples and instances have no such method. -/
def insertAt (o : HVal) (i : Int) (v : HVal) : HReader HVal := do
  let c ← cell o .attributeError
  match c with
  | .list items => do
    update o (.list (items.take (pyBound items.length i) ++ v :: items.drop (pyBound items.length i)))
    return .none
  | _ => raise .attributeError

/-- `o.pop(i)` of a list (Python), for any index: the element that is removed; tuples and instances have no such method. -/
def popAt (o : HVal) (i : Int) : HReader HVal := do
  let c ← cell o .attributeError
  match c with
  | .list items =>
    match pyIndex items.length i with
    | none => raise .indexError
    | some j =>
      match items[j]? with
      | some v => do
        update o (.list (items.eraseIdx j))
        return v
      | none => raise .indexError
  | _ => raise .attributeError

/-- `del o[i]` (Python), for any index; tuples and instances raise `TypeError`. -/
def delItemAt (o : HVal) (i : Int) : HReader HVal := do
  let c ← cell o .typeError
  match c with
  | .list items =>
    match pyIndex items.length i with
    | none => raise .indexError
    | some j => do
      update o (.list (items.eraseIdx j))
      return .none
  | _ => raise .typeError

/-- `del o[i:j]` (Python), for any bounds; tuples and instances raise `TypeError`. -/
def delSliceAt (o : HVal) (i j : Int) : HReader HVal := do
  let c ← cell o .typeError
  match c with
  | .list items => do
    update o (.list (items.take (pyBound items.length i) ++ items.drop (max (pyBound items.length i) (pyBound items.length j))))
    return .none
  | _ => raise .typeError

/-- `o[i:j]` (Python), for any bounds: a new list with the same elements, or a new tuple.  (CPython may return a tuple itself; whether two tuples
are the same object is not modelled.) -/
def sliceAt (o : HVal) (i j : Int) : HReader HVal := do
  let c ← cell o .typeError
  match c with
  | .list items => alloc (.list ((items.take (pyBound items.length j)).drop (pyBound items.length i)))
  | .tuple items => alloc (.tuple ((items.take (pyBound items.length j)).drop (pyBound items.length i)))
  | .record _ _ => raise .typeError

/-- `o.extend(p)` of a list (Python), where `p` is a list or a tuple; instances are not iterable. -/
def extendBy (o p : HVal) : HReader HVal := do
  let c ← cell o .attributeError
  match c with
  | .list items => do
    let d ← cell p .typeError
    match d with
    | .list more | .tuple more => do
      update o (.list (items ++ more))
      return .none
    | .record _ _ => raise .typeError
  | _ => raise .attributeError

/-- `copy.copy(v)` (Python standard library, `copy.py`): a new list or instance with the same elements or attributes; everything else is its own
copy. -/
def copy (v : HVal) : HReader HVal :=
  match v with
  | .ref _ => do
    let c ← cell v .typeError
    match c with
    | .tuple _ => pure v
    | .list items => alloc (.list items)
    | .record cls attrs => alloc (.record cls attrs)
  | v => pure v

end HReader

/-- The object number `h` among those a script has got to know. -/
def named (names : List HVal) (h : Nat) : HVal := names[h]?.getD .none

/-- The value a script hands to an operation. -/
def Arg.value (names : List HVal) : Arg → HVal
  | .none => .none
  | .int i => .int i
  | .float x => .float x
  | .str s => .str s
  | .object h => named names h

/-- What an operation does, with room for `depth` nested calls in `copy.deepcopy`: the value of the expression; statements have the value
`None`, and `is` has 0 or 1 (`bool` is a subtype of `int`). -/
def Op.eval (depth : Nat) (names : List HVal) : Op → HReader HVal
  | .getAttr o name => HReader.getAttr (named names o) name
  | .getItem o i => HReader.getItemAt (named names o) i
  | .len o => do
    let n ← HReader.len (named names o)
    return .int n
  | .same o o' => return .int (if named names o = named names o' then 1 else 0)
  | .setAttr o name v => do
    HReader.setAttr (named names o) name (v.value names)
    return .none
  | .setItem o i v => HReader.setItemAt (named names o) i (v.value names)
  | .append o v => do
    HReader.append (named names o) (v.value names)
    return .none
  | .insert o i v => HReader.insertAt (named names o) i (v.value names)
  | .pop o i => HReader.popAt (named names o) i
  | .delItem o i => HReader.delItemAt (named names o) i
  | .delSlice o i j => HReader.delSliceAt (named names o) i j
  | .newList vs => HReader.alloc (.list (vs.map (Arg.value names)))
  | .newTuple vs => HReader.alloc (.tuple (vs.map (Arg.value names)))
  | .new cls vs => HReader.alloc (.record cls (vs.map fun (n, v) => (n, v.value names)))
  | .deepcopy o => do
    let (v, _) ← HReader.deepcopy depth (named names o) []
    return v
  | .slice o i j => HReader.sliceAt (named names o) i j
  | .extend o p => HReader.extendBy (named names o) (named names p)
  | .copy o => HReader.copy (named names o)

/-- The objects in memory and those among them that a script has got to know. -/
structure Memory where
  heap : Heap
  names : List HVal
deriving Inhabited

/-- Hand a value to a script: if it is an object, the script now has one more name. -/
def Memory.hand (H : Heap) (names : List HVal) : HVal → Seen × Memory
  | .none => (.none, ⟨H, names⟩)
  | .int i => (.int i, ⟨H, names⟩)
  | .float x => (.float x, ⟨H, names⟩)
  | .str s => (.str s, ⟨H, names⟩)
  | .ref a => (.object names.length ((H[a]?.map Cell.kind).getD .list), ⟨H, names ++ [.ref a]⟩)

/-- An operation with its answer or exception.  An operation that raises changes nothing.  (`copy.deepcopy` may have created objects when it
raises `RecursionError`; nobody can get hold of them.) -/
def Memory.op (depth : Nat) (s : ByteHandler) (W : Memory) (o : Op) : Py Seen × Memory :=
  match o.eval depth W.names W.heap s with
  | .error e => (.error e, W)
  | .ok (v, H, _) => (.ok (Memory.hand H W.names v).1, (Memory.hand H W.names v).2)

/-- What a script can do: an operation on objects, `DatFile.parse(p)`, `o.save(p)`. -/
inductive Action where
  | op (o : Op)
  | parse (p : Path)
  | save (o : Nat) (p : Path)
deriving Inhabited

/-- The files, and the objects in memory (`M` is `Memory`, or a description of it). -/
structure Situation (M : Type) where
  disk : FileSystem
  memory : M

/-- Whether a value is an instance of `DatFile`: no other class has a method `save`. -/
def isDatFile (H : Heap) (v : HVal) : Bool :=
  match v with
  | .ref a => decide ((H[a]?.map Cell.kind) = some (.instance (lit "DatFile")))
  | _ => false

/-- What a script does, with room for `depth` nested calls, in an environment that says what happens to the writing of a file —
`/repo/src/genieutils/datfile.py:45-55` for `parse` and `save`. -/
def Situation.act (z : Zlib) (env : Environment) (depth : Nat) (S : Situation Memory) : Action → Outcome Seen × Situation Memory
  | .op o =>
    match S.memory.op depth (ByteHandler.new []) o with
    | (.ok v, m) => (.returned v, { S with memory := m })
    | (.error e, m) => (.raised e, { S with memory := m })
  | .parse p =>
    match DatFile.parseObject z S.disk p S.memory.heap with
    | .raised e => (.raised e, S)
    | .crashed => (.crashed, S)
    | .returned (o, H) => (.returned (Memory.hand H S.memory.names o).1, { S with memory := (Memory.hand H S.memory.names o).2 })
  | .save o p =>
    if isDatFile S.memory.heap (named S.memory.names o) then
      match W.save z env S.disk S.memory.heap depth (named S.memory.names o) p with
      | (disk, .returned _) => (.returned .none, { S with disk := disk })
      | (disk, .raised e) => (.raised e, { S with disk := disk })
      | (disk, .crashed) => (.crashed, { S with disk := disk })
    else (.raised .attributeError, S)

/-- What a script does next, in a state: it ends, with a result or an exception, or it does something and goes on according to the answer
or exception. -/
inductive Next (σ α : Type) where
  | stop (result : Py α)
  | call (a : Action) (next : Py Seen → σ)

/-- A script: for every state it can be in, what it does next. -/
abbrev Script (σ α : Type) := σ → Next σ α

/-- A script on its way, or after a crash, which leaves the files only. -/
inductive Status (σ M : Type) where
  | running (st : σ) (S : Situation M)
  | crashed (disk : FileSystem)

/-- One action of a script; a script that has ended stays as it is. -/
def Script.step (P : Script σ α) (z : Zlib) (env : Environment) (depth : Nat) : Status σ Memory → Status σ Memory
  | .crashed disk => .crashed disk
  | .running st S =>
    match P st with
    | .stop _ => .running st S
    | .call a next =>
      match S.act z env depth a with
      | (.returned v, S') => .running (next (.ok v)) S'
      | (.raised e, S') => .running (next (.error e)) S'
      | (.crashed, S') => .crashed S'.disk

/-- The first `n` actions of a script; `env i` is what happens during the one with number `i`. -/
def Script.run (P : Script σ α) (z : Zlib) (env : Nat → Environment) (depth : Nat) : Nat → Status σ Memory → Status σ Memory
  | 0, st => st
  | n + 1, st => P.step z (env n) depth (P.run z env depth n st)

/-! ## Programs with `for`, `if`, `try` -/

/-- A program: it ends with a result or with an exception that nobody catches, or does something and goes on with the answer, or else with the
handler of the exception.  (Lean's `do` notation gives variables, `if`, and `for` over a list; `while` loops are scripts, see above.) -/
inductive Prog (α : Type) where
  | done (a : α)
  | raised (e : PyErr)
  | act (a : Action) (next : Seen → Prog α) (handler : PyErr → Prog α)

namespace Prog

/-- One thing after another. -/
def bind (p : Prog α) (f : α → Prog β) : Prog β :=
  match p with
  | .done a => f a
  | .raised e => .raised e
  | .act a next handler => .act a (fun v => (next v).bind f) (fun e => (handler e).bind f)

instance : Monad Prog where
  pure := .done
  bind := Prog.bind

/-- `try: p  except …: handler`. -/
def tryExcept (p : Prog α) (handler : PyErr → Prog α) : Prog α :=
  match p with
  | .done a => .done a
  | .raised e => handler e
  | .act a next h => .act a (fun v => (next v).tryExcept handler) (fun e => (h e).tryExcept handler)

/-- One action. -/
def call (a : Action) : Prog Seen := .act a .done .raised

/-- An expression whose value is an object.  (A script that gets something else ends; a real one would raise where it uses it.) -/
def object (o : Op) : Prog Nat := do
  match ← call (.op o) with
  | .object h _ => return h
  | _ => .raised .typeError

/-- An expression whose value is a number. -/
def int (o : Op) : Prog Int := do
  match ← call (.op o) with
  | .int i => return i
  | _ => .raised .typeError

/-- A statement. -/
def statement (o : Op) : Prog PUnit := do
  let _ ← call (.op o)

/-- `DatFile.parse(p)`. -/
def parse (p : Path) : Prog Nat := do
  match ← call (.parse p) with
  | .object h _ => return h
  | _ => .raised .typeError

/-- `o.save(p)`. -/
def save (o : Nat) (p : Path) : Prog PUnit := do
  let _ ← call (.save o p)

/-- `o.name = f(o.name)`, such as `o.name *= 2`. -/
def update (o : Nat) (name : PyStr) (f : Int → Int) : Prog PUnit := do
  let v ← int (.getAttr o name)
  statement (.setAttr o name (.int (f v)))

/-- `body(i)`, …, `body(i + n - 1)`. -/
def forFrom (body : Nat → Prog PUnit) (i : Nat) : Nat → Prog PUnit
  | 0 => return
  | n + 1 => do
    body i
    forFrom body (i + 1) n

/-- `x = l[i]`, and `body(x)` if that is an object. -/
def visit (l : Nat) (body : Nat → Prog PUnit) (i : Nat) : Prog PUnit := do
  match ← call (.op (.getItem l i)) with
  | .object x _ => body x
  | _ => return

/-- `for x in l: if x is not None: body(x)`, for a list whose length `body` does not change (Python looks at the length each time; a body that
does change it can be written with `forFrom` or as a script). -/
def forEach (l : Nat) (body : Nat → Prog PUnit) : Prog PUnit := do
  let n ← int (.len l)
  forFrom (visit l body) 0 n.toNat

/-- What a program does next; its state is the program that is left. -/
def script : Script (Prog α) α
  | .done a => .stop (.ok a)
  | .raised e => .stop (.error e)
  | .act a next handler => .call a fun
    | .ok v => next v
    | .error e => handler e

/-- A program from beginning to end, from the moment `i` on (`env i` is what happens then): what it results in, and at which moment. -/
def exec (z : Zlib) (env : Nat → Environment) (depth : Nat) : Prog α → Nat → Situation Memory → Outcome α × Nat × Situation Memory
  | .done a, i, S => (.returned a, i, S)
  | .raised e, i, S => (.raised e, i, S)
  | .act a next handler, i, S =>
    match S.act z (env i) depth a with
    | (.returned v, S') => (next v).exec z env depth (i + 1) S'
    | (.raised e, S') => (handler e).exec z env depth (i + 1) S'
    | (.crashed, S') => (.crashed, i + 1, S')

end Prog

end Genie
