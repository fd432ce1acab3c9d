import Verif.Py.Interp
import Verif.Model.SourceIo
import Verif.Model.HeapAsdict
import Verif.Model.HeapIo
/-!
# What the source code that works on files means

An interpreter for `DatFile.parse`, `DatFile.save`, `scripts.py` and programs like those of `README.md`, on top of the one of `Verif/Py/Interp.lean`: it
executes statements that use `pathlib`, `zlib`, `argparse`, `json`, `dataclasses.asdict` and `print`, and hands calls of all other functions of the
package, and the operations on objects, to that one.

Outside the model, as parameters: what zlib does, what the environment does to a write, what `argparse` makes of the command line, and the
digits of floats (`Platform`).

Simplifications: an uncaught exception ends the program, there is no `try`; so the objects at that moment are irrelevant and stay as they were at
the start of the call that raised.  There is one `ArgumentParser`, with positional arguments of `type=Path`.  `for x in o` fetches the elements one by
one; the number of iterations is the length of the list at the start.  `memoryview(b)` is `b`.  Exceptions of kinds that cannot occur
(unknown names, wrong argument lists) are all `TypeError`.
-/

namespace Genie.Src

/-- What is outside the model. -/
structure Platform where
  zlib : Zlib
  env : Environment
  /-- `parser.parse_args()`: from the names of the positional arguments to their values — or an exception (such as `SystemExit`) -/
  arguments : List String → Py (List String)
  digits : Json.FloatRepr

/-- Everything that a program can change: files, objects, the standard output, and the `ArgumentParser`'s positional arguments. -/
structure World where
  disk : FileSystem
  heap : Heap
  printed : PyStr
  positionals : List String

/-- Values of expressions. -/
inductive IVal where
  | p (v : PVal)
  /-- a `Path` -/
  | path (p : Path)
  /-- a `ByteHandler` -/
  | handler (s : ByteHandler)
  /-- the `ArgumentParser` -/
  | parser
  /-- the result of `parse_args` -/
  | parsed (vs : List (String × String))
  /-- dictionaries, as `asdict` makes them -/
  | tree (t : PyTree)
  /-- text that was computed -/
  | string (s : PyStr)
  /-- the function `f` of the module `m` -/
  | fn (m f : Name)

/-- Computations. -/
abbrev IM (α : Type) := World → World × Outcome α

/-- First `f`, then `k` with its result. -/
def IM.andThen (f : IM α) (k : α → IM β) : IM β := fun w =>
  match f w with
  | (w', .returned a) => k a w'
  | (w', .raised e) => (w', .raised e)
  | (w', .crashed) => (w', .crashed)

/-- Nothing more to do. -/
def IM.done (a : α) : IM α := fun w => (w, .returned a)

/-- Raise an exception. -/
def IM.fail (e : PyErr) : IM α := fun w => (w, .raised e)

/-- A computation of the inner interpreter, with the `ByteHandler` `s`. -/
def inner (s : ByteHandler) (f : M α) : IM (α × ByteHandler) := fun w =>
  match f w.heap s with
  | .error e => (w, .raised e)
  | .ok (a, H, s') => ({ w with heap := H }, .returned (a, s'))

/-- A computation of the inner interpreter without a `ByteHandler`. -/
def object (f : M α) : IM α := .andThen (inner (ByteHandler.new []) f) fun r => .done r.1

/-- Local variables. -/
abbrev IEnv := List (Name × IVal)

/-- A list of arguments: positional and by keyword. -/
structure IArgs where
  pos : List IVal
  kw : List (Name × IVal)

/-- What a name of a module stands for: what it imports, its functions, or else a name that Python provides. -/
def nameIo (m : Module) (fs : List Fun) (x : Name) : Option IVal :=
  match find x m.globals with
  | some .lib => some (.p (.lib x))
  | some .cls => some (.p (.cls x))
  | some (.from_ m') =>
    match glob m' x with
    | some .cls => some (.p (.cls x))
    | _ => none
  | some (.const _) => none
  | none =>
    match findFun x fs with
    | some _ => some (.fn m.name x)
    | none =>
      match Nat.beq x n!"print", Nat.beq x n!"memoryview" with
      | true, _ => some (.p (.lib x))
      | _, true => some (.p (.lib x))
      | _, _ => none

/-- `x = v`. -/
def setIo (x : Name) (v : IVal) : IEnv → IEnv
  | [] => [(x, v)]
  | (y, w) :: ρ =>
    match Nat.beq x y with
    | true => (y, v) :: ρ
    | false => (y, w) :: setIo x v ρ

/-- Calls of the functions that work on files: the class or module, the function, the arguments (with the receiver). -/
abbrev ICall := Name → Name → List IVal → IM IVal

/-- Is `f` a function of the class `c` that works on files? -/
def worksOnFiles (c f : Name) : Bool := Nat.beq c n!"DatFile" && (Nat.beq f n!"parse" || Nat.beq f n!"save")

/-- The class of an object. -/
def classOf (H : Heap) (v : HVal) : Option Name :=
  match W.cell H v with
  | some (.record c _) => some (Name.ofStr c)
  | _ => none

/-- `lib.f(…)`. -/
def libIo (P : Platform) (room : Nat) (lib f : Name) (as : IArgs) : IM IVal :=
  match Nat.beq lib n!"zlib", Nat.beq lib n!"dataclasses", Nat.beq lib n!"json", Nat.beq lib n!"argparse" with
  | true, _, _, _ =>
    match Nat.beq f n!"decompress", Nat.beq f n!"compress" with
    | true, _ =>
      match as.pos, find n!"wbits" as.kw, as.kw.length with
      | [.p (.bytes b)], some (.p (.h (.int (-15)))), 1 =>
        match P.zlib.decompress b with
        | some d => .done (.p (.bytes d))
        | none => .fail .zlibError
      | _, _, _ => .fail .typeError
    | _, true =>
      match as.pos, find n!"level" as.kw, find n!"wbits" as.kw, as.kw.length with
      | [.p (.bytes b)], some (.p (.h (.int (-1)))), some (.p (.h (.int (-15)))), 2 => .done (.p (.bytes (P.zlib.compress b)))
      | _, _, _, _ => .fail .typeError
    | _, _ => .fail .typeError
  | _, true, _, _ =>
    match Nat.beq f n!"asdict", as.pos, as.kw with
    | true, [.p (.h v)], [] => fun w =>
      match W.asdict w.heap room v with
      | .ok t => (w, .returned (.tree t))
      | .error e => (w, .raised e)
    | _, _, _ => .fail .typeError
  | _, _, true, _ =>
    match Nat.beq f n!"dumps", as.pos, find n!"indent" as.kw, as.kw.length with
    | true, [.tree t], some (.p (.h (.int 2))), 1 => .done (.string (Json.dumps P.digits t))
    | _, _, _, _ => .fail .typeError
  | _, _, _, true =>
    match Nat.beq f n!"ArgumentParser", as.pos with
    | true, [] => fun w => ({ w with positionals := [] }, .returned .parser)
    | _, _ => .fail .typeError
  | _, _, _, _ => .fail .typeError

/-- `path.f(…)`. -/
def pathIo (P : Platform) (p : Path) (f : Name) (as : IArgs) : IM IVal := fun w =>
  match Nat.beq f n!"read_bytes", Nat.beq f n!"write_bytes", as.pos, as.kw with
  | true, _, [], [] =>
    match w.disk p with
    | some b => (w, .returned (.p (.bytes b)))
    | none => (w, .raised .osError)
  | _, true, [.p (.bytes b)], [] =>
    match writeBytes P.env w.disk p b with
    | (d, .returned _) => ({ w with disk := d }, .returned (.p (.h (.int b.length))))
    | (d, .raised e) => ({ w with disk := d }, .raised e)
    | (d, .crashed) => ({ w with disk := d }, .crashed)
  | _, _, _, _ => (w, .raised .typeError)

/-- `parser.f(…)`. -/
def parserIo (P : Platform) (f : Name) (as : IArgs) : IM IVal := fun w =>
  match Nat.beq f n!"add_argument", Nat.beq f n!"parse_args" with
  | true, _ =>
    match as.pos, find n!"type" as.kw with
    | [.p (.text name)], some (.p (.lib t)) =>
      match Nat.beq t n!"Path" with
      | true => ({ w with positionals := w.positionals ++ [name] }, .returned (.p (.h .none)))
      | false => (w, .raised .typeError)
    | _, _ => (w, .raised .typeError)
  | _, true =>
    match as.pos, as.kw with
    | [], [] =>
      match P.arguments w.positionals with
      | .ok vs => (w, .returned (.parsed (w.positionals.zip vs)))
      | .error e => (w, .raised e)
    | _, _ => (w, .raised .typeError)
  | _, _ => (w, .raised .typeError)

/-- A method call: `v.f(…)`. -/
def invokeIo (P : Platform) (call : ICall) (room : Nat) (v : IVal) (f : Name) (as : IArgs) : IM IVal :=
  match v with
  | .p (.lib l) => libIo P room l f as
  | .path p => pathIo P p f as
  | .parser => parserIo P f as
  | .p (.cls c) =>
    match worksOnFiles c f with
    | true =>
      match as.kw with
      | [] => call c f (v :: as.pos)
      | _ => .fail .typeError
    | false =>
      match as.pos, as.kw with
      | [.handler s], [] => .andThen (inner s (callN room (.cls c) c f ⟨[.handler], []⟩)) fun r => .done (.p r.1)
      | _, _ => .fail .typeError
  | .p (.h o) => fun w =>
    match classOf w.heap o with
    | some c =>
      match worksOnFiles c f with
      | true =>
        match as.kw with
        | [] => call c f (v :: as.pos) w
        | _ => (w, .raised .typeError)
      | false =>
        match as.pos, as.kw with
        | [], [] => IM.andThen (object (objMethod (callN room) o f ⟨[], []⟩)) (fun r => .done (.p r)) w
        | _, _ => (w, .raised .typeError)
    | none =>
      match Nat.beq f n!"pop", as.pos, as.kw with
      | true, [], [] => IM.andThen (object (HReader.pop o)) (fun _ => .done (.p (.h .none))) w
      | _, _, _ => (w, .raised .typeError)
  | _ => .fail .typeError

/-- A call of something else: `v(…)`. -/
def applyIo (call : ICall) (room : Nat) (v : IVal) (as : IArgs) : IM IVal :=
  match v, as.pos, as.kw with
  | .p (.lib l), [x], [] =>
    match Nat.beq l n!"Path", Nat.beq l n!"memoryview", Nat.beq l n!"print" with
    | true, _, _ =>
      match x with
      | .p (.text s) => .done (.path s)
      | .path p => .done (.path p)
      | _ => .fail .typeError
    | _, true, _ =>
      match x with
      | .p (.bytes b) => .done (.p (.bytes b))
      | _ => .fail .typeError
    | _, _, true =>
      match x with
      | .string s => fun w => ({ w with printed := w.printed ++ (s ++ [10]) }, .returned (.p (.h .none)))
      | _ => .fail .typeError
    | _, _, _ => .fail .typeError
  | .p (.cls c), [.p x], [] =>
    match Nat.beq c n!"ByteHandler" with
    | true => .andThen (inner (ByteHandler.new []) (callN room .handler c n!"__init__" ⟨[x], []⟩)) fun r => .done (.handler r.2)
    | false => .fail .typeError
  | .fn m f, as, [] => call m f as
  | _, _, _ => .fail .typeError

/-- `v.a`. -/
def attrIo (room : Nat) (v : IVal) (a : Name) : IM IVal :=
  match v with
  | .p v => .andThen (object (attrM (callN room) v a)) fun r => .done (.p r)
  | .parsed vs =>
    match vs.find? fun x => Nat.beq a (Name.ofStr (lit x.1)) with
    | some x => .done (.path x.2)
    | none => .fail .attributeError
  | _ => .fail .attributeError

/-- The local variable or name `x`. -/
def lookIo (m : Module) (fs : List Fun) (x : Name) (ρ : IEnv) : IM IVal :=
  match find x ρ with
  | some v => .done v
  | none =>
    match nameIo m fs x with
    | some v => .done v
    | none => .fail .typeError

section
variable (P : Platform) (m : Module) (fs : List Fun) (call : ICall) (room : Nat)

mutual

/-- Evaluate an expression. -/
def evalIo (e : Ex) (ρ : IEnv) : IM IVal :=
  match e with
  | .name x => lookIo m fs x ρ
  | .int i => .done (.p (.h (.int i)))
  | .str s => .done (.p (.text s))
  | .none => .done (.p (.h .none))
  | .neg e => .andThen (evalIo e ρ) fun v =>
    match v with
    | .p (.h (.int i)) => .done (.p (.h (.int (-i))))
    | _ => .fail .typeError
  | .attr e a => .andThen (evalIo e ρ) fun v => attrIo room v a
  | .index e i => .andThen (evalIo e ρ) fun v => .andThen (evalIo i ρ) fun i =>
    match v, i with
    | .p v, .p i => .andThen (object (indexM v i)) fun r => .done (.p r)
    | _, _ => .fail .typeError
  | .call (.attr e f) as => .andThen (evalIo e ρ) fun v => .andThen (evalArgsIo as ρ) fun as => invokeIo P call room v f as
  | .call f as => .andThen (evalIo f ρ) fun v => .andThen (evalArgsIo as ρ) fun as => applyIo call room v as
  | _ => .fail .typeError

/-- Evaluate a list of arguments, left to right. -/
def evalArgsIo (e : Ex) (ρ : IEnv) : IM IArgs :=
  match e with
  | .argNil => .done ⟨[], []⟩
  | .arg e rest => .andThen (evalIo e ρ) fun v => .andThen (evalArgsIo rest ρ) fun as => .done ⟨v :: as.pos, as.kw⟩
  | .kw x e rest => .andThen (evalIo e ρ) fun v => .andThen (evalArgsIo rest ρ) fun as => .done ⟨as.pos, (x, v) :: as.kw⟩
  | _ => .fail .typeError

end

/-- How a block ends: it goes on with these local variables, or returns a value. -/
inductive IFlow where
  | next (ρ : IEnv)
  | ret (v : IVal)

/-- `for x in …:` from the index `i` on, for `n` elements of the list `o`. -/
def forIo (body : IEnv → IM IFlow) (x : Name) (o : HVal) : Nat → Nat → IEnv → IM IFlow
  | _, 0, ρ => .done (.next ρ)
  | i, n + 1, ρ => .andThen (object (HReader.getItem o i)) fun v => .andThen (body (setIo x (.p (.h v)) ρ)) fun fl =>
    match fl with
    | .next ρ' => forIo body x o (i + 1) n ρ'
    | .ret v => .done (.ret v)

/-- Execute a block. -/
def execIo : St → IEnv → IM IFlow
  | .done, ρ => .done (.next ρ)
  | .assign x e rest, ρ => .andThen (evalIo P m fs call room e ρ) fun v => execIo rest (setIo x v ρ)
  | .expr e rest, ρ => .andThen (evalIo P m fs call room e ρ) fun _ => execIo rest ρ
  | .setAttr o a e rest, ρ => .andThen (evalIo P m fs call room e ρ) fun v => .andThen (evalIo P m fs call room o ρ) fun u =>
    match u, v with
    | .p u, .p v => .andThen (object (setAttrM u a v)) fun _ => execIo rest ρ
    | _, _ => .fail .typeError
  | .forIn x it body rest, ρ => .andThen (evalIo P m fs call room it ρ) fun v =>
    match v with
    | .p (.h o) => .andThen (object (HReader.len o)) fun n => .andThen (forIo (fun ρ => execIo body ρ) x o 0 n ρ) fun fl =>
      match fl with
      | .next ρ' => execIo rest ρ'
      | .ret v => .done (.ret v)
    | _ => .fail .typeError
  | .ret e, ρ => .andThen (evalIo P m fs call room e ρ) fun v => .done (.ret v)
  | _, _ => .fail .typeError

end

/-- The functions that work on files, with the names of their modules. -/
def functionIo (c f : Name) : Option (Module × List Fun × Fun) :=
  match Nat.beq c n!"DatFile", Nat.beq c n!"scripts" with
  | true, _ =>
    match findFun f [DatFile.src_parse, DatFile.src_save] with
    | some g => some (module_datfile, [], g)
    | none => none
  | _, true =>
    match findFun f Scripts.functions with
    | some g => some (module_scripts, Scripts.functions, g)
    | none => none
  | _, _ => none

/-- Bind the arguments to the parameters; none of these functions has default values. -/
def bindIo : List (Name × Ex) → List IVal → Option IEnv
  | [], [] => some []
  | (x, _) :: ps, v :: vs =>
    match bindIo ps vs with
    | some ρ => some ((x, v) :: ρ)
    | none => none
  | _, _ => none

/-- Call a function that works on files, with at most `n` calls inside each other. -/
def callIo (P : Platform) : Nat → ICall
  | 0, _, _, _ => .fail .recursionError
  | n + 1, c, f, as =>
    match functionIo c f with
    | none => .fail .typeError
    | some (m, fs, g) =>
      match bindIo g.params as with
      | none => .fail .typeError
      | some ρ => .andThen (execIo P m fs (callIo P n) n g.body ρ) fun fl =>
        match fl with
        | .next _ => .done (.p (.h .none))
        | .ret v => .done v

/-- Execute a program: a module without functions of its own. -/
def runProgram (P : Platform) (room : Nat) (m : Module) (body : St) : IM PUnit :=
  .andThen (execIo P m [] (callIo P room) room body []) fun _ => .done ()

end Genie.Src
