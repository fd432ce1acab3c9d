import Verif.Model.HeapWrite
import Verif.Model.Source
/-!
# What the source code means

An interpreter for the part of Python that `/repo/src/genieutils` uses (`Verif/Py/Ast.lean`), written for the language and not for this
program: names, attributes, calls with positional and keyword arguments and default values, methods, class methods, static methods,
properties, inheritance, dataclass constructors, tuple unpacking, `if`, `for`, `assert`, comprehensions, and the built-in functions and
methods that occur.  The operations on objects (`W.attr`, `W.item`, `W.truthy`, …) and on bytes (`intFromBytes`, `strDecode`,
`structUnpack`, …) are those of `Verif/Py` and `Verif/Model/HeapWrite.lean`.

Expressions are evaluated with a continuation (`k`: what happens with the value), statements one after the other; the order of evaluation
is Python's.

Simplifications: a value is an object of the heap (`h`), or one of a few kinds that the program never stores in an object: truth values,
`bytes`, string literals, the `ByteHandler`, classes, members of `Version`, and sequences that are used once (`struct.unpack` results,
comprehensions, lists of `bytes`).  `UnitType` is an `IntEnum`: its members are `int`s.  An instance attribute that shadows a method is not
seen by a call.  Exceptions of kinds that cannot occur (unknown names, wrong argument lists) are all `TypeError`.
-/

namespace Genie.Src

/-- Values of expressions. -/
inductive PVal where
  | h (v : HVal)
  | bool (b : Bool)
  | bytes (b : Bytes)
  /-- a string literal of the program -/
  | text (s : String)
  /-- the `ByteHandler` -/
  | handler
  /-- a class of the package -/
  | cls (c : Name)
  /-- a module, class or function from outside the package -/
  | lib (x : Name)
  /-- a member of `Version` -/
  | version (v : Version)
  /-- a tuple or list that is used once -/
  | seq (vs : List HVal)
  /-- a list of `bytes` that is used once -/
  | parts (bs : List Bytes)
  /-- `range(n)` -/
  | range (n : Int)

/-- Local variables. -/
abbrev Env := List (Name × PVal)

/-- A list of arguments: positional and by keyword. -/
structure Args where
  pos : List PVal
  kw : List (Name × PVal)

/-- Computations: they work on the objects and on the `ByteHandler`, and may raise. -/
abbrev M := HReader

/-- First `f`, then `k` with its result. -/
def andThen (f : M α) (k : α → M β) : M β := fun H s =>
  match f H s with
  | .error e => .error e
  | .ok (a, H', s') => k a H' s'

/-- Nothing more to do. -/
def done (a : α) : M α := fun H s => .ok (a, H, s)

/-- Raise an exception. -/
def fail (e : PyErr) : M α := fun _ _ => .error e

/-- A computation that touches neither objects nor the handler. -/
def pyM (x : Py α) : M α :=
  match x with
  | .ok a => done a
  | .error e => fail e

/-- A computation that looks at objects. -/
def heapM (f : Heap → Py α) : M α := fun H s =>
  match f H with
  | .ok a => .ok (a, H, s)
  | .error e => .error e

/-- One of two computations. -/
def branch (c : Bool) (a b : M α) : M α :=
  match c with
  | true => a
  | false => b

/-! ## names -/

/-- The characters of an identifier. -/
def Name.strAux : Nat → Nat → PyStr → PyStr
  | 0, _, acc => acc
  | fuel + 1, n, acc =>
    match n with
    | 0 => acc
    | n + 1 => strAux fuel ((n + 1) / 256) ((n + 1) % 256 :: acc)

/-- The characters of an identifier (of at most 100 characters). -/
def Name.str (x : Name) : PyStr := Name.strAux 100 x []

/-- The identifier with these characters. -/
def Name.ofStr (s : PyStr) : Name := s.foldl (fun n c => n * 256 + c) 0

/-- The entry for `x` in a list of named things. -/
def find (x : Name) : List (Name × α) → Option α
  | [] => none
  | (y, a) :: rest =>
    match Nat.beq x y with
    | true => some a
    | false => find x rest

/-- The class named `c`. -/
def findCls (c : Name) : List Cls → Option Cls
  | [] => none
  | d :: rest =>
    match Nat.beq c d.name with
    | true => some d
    | false => findCls c rest

/-- The function named `f` in a list of functions. -/
def findFun (f : Name) : List Fun → Option Fun
  | [] => none
  | g :: rest =>
    match Nat.beq f g.name with
    | true => some g
    | false => findFun f rest

/-- The module named `m`. -/
def findModule (m : Name) : List Module → Option Module
  | [] => none
  | d :: rest =>
    match Nat.beq m d.name with
    | true => some d
    | false => findModule m rest

/-- The function `f` of a class, or else of its base class; with the module it is written in. -/
def method (c f : Name) : Option (Name × Fun) :=
  match findCls c classes with
  | none => none
  | some d =>
    match findFun f d.funs with
    | some g => some (d.module, g)
    | none =>
      match findCls d.base classes with
      | none => none
      | some b =>
        match findFun f b.funs with
        | some g => some (b.module, g)
        | none => none

/-- `C.x` for a class variable `x`: members of `UnitType` (an `IntEnum`) are `int`s, those of `Version` are the members of the enumeration in
the order of their definition. -/
def memberAt (a : Name) : List (Name × Ex) → List Version → Option PVal
  | (y, _) :: rest, v :: vs =>
    match Nat.beq a y with
    | true => some (.version v)
    | false => memberAt a rest vs
  | _, _ => none

/-- `C.a` for a class `C`. -/
def classVar (c a : Name) : Option PVal :=
  match findCls c classes with
  | none => none
  | some d =>
    match Nat.beq d.base n!"Enum" with
    | true => memberAt a d.vars Version.all
    | false =>
      match find a d.vars with
      | some (.int i) => some (.h (.int i))
      | _ => none

/-- What `x` is in the module `m`. -/
def glob (m x : Name) : Option Glob :=
  match findModule m modules with
  | none => none
  | some d => find x d.globals

/-- The value of a literal. -/
def litVal : Ex → Option PVal
  | .int i => some (.h (.int i))
  | .float bits => some (.h (.float ⟨BitVec.ofNat 64 bits⟩))
  | .str s => some (.text s)
  | .bytes b => some (.bytes (b.map UInt8.ofNat))
  | .none => some (.h .none)
  | .bool b => some (.bool b)
  | _ => none

/-- The value of an expression that is evaluated once, when a module is loaded: literals, `C.x`, and `struct.calcsize(x)`. -/
def constVal (m : Name) : Ex → Option PVal
  | .attr (.name c) a => classVar c a
  | .call (.attr (.name l) f) (.arg (.name x) .argNil) =>
    match Nat.beq l n!"struct" && Nat.beq f n!"calcsize" with
    | true =>
      match glob m x with
      | some (.const (.str s)) =>
        match calcsize s with
        | .ok n => some (.h (.int n))
        | .error _ => none
      | _ => none
    | false => none
  | e => litVal e

/-- The names that Python itself provides. -/
def builtins : List (Name × Ex) :=
  [(n!"len", .none), (n!"range", .none), (n!"bytes", .none), (n!"int", .none), (n!"NotImplementedError", .none)]

/-- What the name `x` stands for in the module `m`, if it is no local variable. -/
def globVal (m x : Name) : Option PVal :=
  match glob m x with
  | some (.const e) => constVal m e
  | some .cls => some (.cls x)
  | some .lib => some (.lib x)
  | some (.from_ m') =>
    match glob m' x with
    | some (.const e) => constVal m' e
    | some .cls => some (.cls x)
    | _ => none
  | none =>
    match find x builtins with
    | some _ => some (.lib x)
    | none => none

/-- The value of the name `x`: a local variable, or else a name of the module. -/
def nameK (m x : Name) : Env → (PVal → M β) → M β
  | [], k =>
    match globVal m x with
    | some v => k v
    | none => fail .typeError
  | (y, v) :: ρ, k =>
    match Nat.beq x y with
    | true => k v
    | false => nameK m x ρ k

/-- `x = v`. -/
def setK (x : Name) (v : PVal) : Env → (Env → M β) → M β
  | [], k => k [(x, v)]
  | (y, w) :: ρ, k =>
    match Nat.beq x y with
    | true => k ((y, v) :: ρ)
    | false => setK x v ρ fun ρ' => k ((y, w) :: ρ')

/-- `x, y, … = …`: the number of values must be right. -/
def unpackK : List Name → List HVal → Env → (Env → M β) → M β
  | [], [], ρ, k => k ρ
  | [], _ :: _, _, _ => fail .valueError
  | _ :: _, [], _, _ => fail .valueError
  | x :: xs, v :: vs, ρ, k => setK x (.h v) ρ fun ρ' => unpackK xs vs ρ' k

/-! ## operations -/

/-- `bool(v)`. -/
def truth (v : PVal) : M Bool :=
  match v with
  | .h (.ref a) => heapM fun H => .ok (W.truthy H (.ref a))
  | .h v => done (W.truthy [] v)
  | .bool b => done b
  | .bytes b => done (!b.isEmpty)
  | _ => fail .typeError

/-- The numbers `l op r` of `str`s. -/
def strCmp (op : Cmp) (l r : PyStr) : Option Bool :=
  match op with
  | .lt => some (Version.strLt l r)
  | .le => some (!Version.strLt r l)
  | .gt => some (Version.strLt r l)
  | .ge => some (!Version.strLt l r)
  | _ => none

/-- The method that a comparison calls. -/
def cmpMethod : Cmp → Option Name
  | .lt => some n!"__lt__"
  | .le => some n!"__le__"
  | .gt => some n!"__gt__"
  | .ge => some n!"__ge__"
  | _ => none

/-- `o op n` with an `int` on the right. -/
def intCmp (op : Cmp) (o : HVal) (n : Int) : Py Bool :=
  match op with
  | .eq => W.eqInt (.ok o) n
  | .ne => W.neInt (.ok o) n
  | .ge => W.geInt (.ok o) n
  | _ => .error .typeError

/-- How functions are called: the object or class before the dot, the class, the name of the function, the arguments. -/
abbrev Call := PVal → Name → Name → Args → M PVal

/-- `l op r`: `is None` and `is not None`; `int`s on the right; strings; members of `Version`, whose comparison is a method
(`/repo/src/genieutils/versions.py:17-27`). -/
def cmpM (call : Call) (op : Cmp) (l r : PVal) : M PVal :=
  match r with
  | .h .none =>
    match op, l with
    | .is, .h v => done (.bool (decide (v = .none)))
    | .isNot, .h v => done (.bool (decide (v ≠ .none)))
    | _, _ => fail .typeError
  | .h (.int n) =>
    match l with
    | .h v => andThen (pyM (intCmp op v n)) fun b => done (.bool b)
    | _ => fail .typeError
  | .h (.str t) =>
    match l with
    | .h (.str s) =>
      match strCmp op s t with
      | some b => done (.bool b)
      | none => fail .typeError
    | _ => fail .typeError
  | .version w =>
    match l, cmpMethod op with
    | .version v, some f => call (.version v) n!"Version" f ⟨[.version w], []⟩
    | _, _ => fail .typeError
  | _ => fail .typeError

/-- `l + r`, `l - r`, `l * r` of `int`s and `bytes`. -/
def binV (op : Bin) (l r : PVal) : M PVal :=
  match op, l, r with
  | .add, .h (.int i), .h (.int j) => done (.h (.int (i + j)))
  | .sub, .h (.int i), .h (.int j) => done (.h (.int (i - j)))
  | .mul, .h (.int i), .h (.int j) => done (.h (.int (i * j)))
  | .add, .bytes a, .bytes b => done (.bytes (a ++ b))
  | .mul, .bytes a, .h (.int i) => done (.bytes (List.replicate i.toNat a).flatten)
  | _, _, _ => fail .typeError

/-- The attributes of the handler (`/repo/src/genieutils/common.py:90-93`). -/
def handlerAttr (a : Name) : M PVal := fun H s =>
  match Nat.beq a n!"content", Nat.beq a n!"offset", Nat.beq a n!"version" with
  | true, _, _ => .ok (.bytes s.content, H, s)
  | _, true, _ => .ok (.h (.int s.offset), H, s)
  | _, _, true => .ok (.version s.version, H, s)
  | _, _, _ => .error .attributeError

/-- `handler.a = v`.  (The offset never becomes negative; if it did, this would be `TypeError`.) -/
def setHandlerAttr (a : Name) (v : PVal) : M PUnit := fun H s =>
  match Nat.beq a n!"offset", Nat.beq a n!"version", v with
  | true, _, .h (.int i) => if i < 0 then .error .typeError else .ok ((), H, { s with offset := i.toNat })
  | _, true, .version w => .ok ((), H, { s with version := w })
  | _, _, .bytes b =>
    match Nat.beq a n!"content" with
    | true => .ok ((), H, { s with content := b })
    | false => .error .typeError
  | _, _, _ => .error .typeError

/-- The property `a` of the class of an object, if there is one. -/
def propertyOf (H : Heap) (v : HVal) (a : Name) : Option Name :=
  match W.cell H v with
  | some (.record c _) =>
    match method (Name.ofStr c) a with
    | some (_, f) => if f.kind = .property then some (Name.ofStr c) else none
    | none => none
  | _ => none

/-- `v.a` for an object: a property of its class, or else one of its attributes. -/
def objAttr (call : Call) (v : HVal) (a : Name) : M PVal := fun H s =>
  match propertyOf H v a with
  | some c => call (.h v) c a ⟨[], []⟩ H s
  | none =>
    match W.attr H v (Name.str a) with
    | .ok w => .ok (.h w, H, s)
    | .error e => .error e

/-- `v.a`. -/
def attrM (call : Call) (v : PVal) (a : Name) : M PVal :=
  match v with
  | .handler => handlerAttr a
  | .cls c =>
    match classVar c a with
    | some v => done v
    | none => fail .attributeError
  | .version v =>
    match Nat.beq a n!"value" with
    | true => done (.h (.str v.value))
    | false => fail .attributeError
  | .h v => objAttr call v a
  | _ => fail .attributeError

/-- `v.a = w` for an object; for the handler, see `setHandlerAttr`. -/
def setAttrM (v : PVal) (a : Name) (w : PVal) : M PUnit :=
  match v with
  | .handler => setHandlerAttr a w
  | .h o =>
    match w with
    | .h x => HReader.setAttr o (Name.str a) x
    | _ => fail .typeError
  | _ => fail .typeError

/-- `v[i]` with `0 ≤ i`. -/
def indexM (v i : PVal) : M PVal :=
  match i with
  | .h (.int i) =>
    match v with
    | .h o => if i < 0 then fail .typeError else andThen (heapM fun H => W.item H (.ok o) i.toNat) fun w => done (.h w)
    | .seq vs =>
      if i < 0 then fail .typeError else
      match vs[i.toNat]? with
      | some w => done (.h w)
      | none => fail .indexError
    | _ => fail .typeError
  | _ => fail .typeError

/-- `v[i:j]` of `bytes` with `0 ≤ i` and `0 ≤ j`. -/
def sliceM (v i j : PVal) : M PVal :=
  match v, i, j with
  | .bytes b, .h (.int i), .h (.int j) => if i < 0 ∨ j < 0 then fail .typeError else done (.bytes (slice b i.toNat j.toNat))
  | _, _, _ => fail .typeError

/-- The elements that a loop, `*v` or `x, y = v` goes through. -/
def iterM (v : PVal) : M (List HVal) :=
  match v with
  | .h o => heapM fun H => W.iter H (.ok o)
  | .seq vs => done vs
  | _ => fail .typeError

/-- The values that are objects. -/
def asObjects : List PVal → Option (List HVal)
  | [] => some []
  | .h v :: vs =>
    match asObjects vs with
    | some ws => some (v :: ws)
    | none => none
  | _ :: _ => none

/-- The values that are `bytes`. -/
def asBytes : List PVal → Option (List Bytes)
  | [] => some []
  | .bytes b :: vs =>
    match asBytes vs with
    | some bs => some (b :: bs)
    | none => none
  | _ :: _ => none

/-- A sequence that is used once. -/
def collect (vs : List PVal) : M PVal :=
  match asObjects vs with
  | some ws => done (.seq ws)
  | none =>
    match asBytes vs with
    | some bs => done (.parts bs)
    | none => fail .typeError

/-- `[…]`: a list of objects is an object; a list of `bytes` is used once. -/
def listM (vs : List PVal) : M PVal :=
  match asObjects vs with
  | some ws => andThen (HReader.alloc (.list ws)) fun v => done (.h v)
  | none => collect vs

/-- `(…, …)`. -/
def tupleM (vs : List PVal) : M PVal :=
  match asObjects vs with
  | some ws => andThen (HReader.alloc (.tuple ws)) fun v => done (.h v)
  | none => fail .typeError

/-- The attributes of a new dataclass instance: the fields in their order, by position, by keyword, or by default. -/
def fieldVals : List (Name × Ex) → List PVal → List (Name × PVal) → Option (List (PyStr × HVal))
  | [], [], _ => some []
  | [], _ :: _, _ => none
  | (x, _) :: fs, .h v :: pos, kw =>
    match fieldVals fs pos kw with
    | some rest => some ((Name.str x, v) :: rest)
    | none => none
  | _ :: _, _ :: _, _ => none
  | (x, d) :: fs, [], kw =>
    match find x kw with
    | some (.h v) =>
      match fieldVals fs [] kw with
      | some rest => some ((Name.str x, v) :: rest)
      | none => none
    | some _ => none
    | none =>
      match litVal d with
      | some (.h v) =>
        match fieldVals fs [] kw with
        | some rest => some ((Name.str x, v) :: rest)
        | none => none
      | _ => none

/-- `C(…)`: an instance of a dataclass, or the member of an enumeration with that value. -/
def construct (c : Name) (as : Args) : M PVal :=
  match findCls c classes with
  | none => fail .typeError
  | some d =>
    match d.dataclass with
    | true =>
      match fieldVals d.fields as.pos as.kw with
      | some attrs => andThen (HReader.alloc (.record (Name.str c) attrs)) fun v => done (.h v)
      | none => fail .typeError
    | false =>
      match Nat.beq c n!"Version", as with
      | true, ⟨[.h (.str s)], []⟩ => andThen (pyM (Version.ofStr s)) fun v => done (.version v)
      | true, ⟨[.h _], []⟩ => fail .valueError
      | _, _ => fail .typeError

/-- What `struct` gives back, as objects. -/
def ofVal : Val → HVal
  | .int i => .int i
  | .float x => .float x

/-- Calls of functions and classes of Python itself by name: `len(v)`, `range(n)`, `bytes(b)`. -/
def libCall (f : Name) (as : Args) : M PVal :=
  match as with
  | ⟨[v], []⟩ =>
    match Nat.beq f n!"len", Nat.beq f n!"range", Nat.beq f n!"bytes" with
    | true, _, _ =>
      match v with
      | .bytes b => done (.h (.int b.length))
      | .h o => andThen (heapM fun H => W.len H (.ok o)) fun n => done (.h (.int n))
      | _ => fail .typeError
    | _, true, _ =>
      match v with
      | .h (.int n) => done (.range n)
      | _ => fail .typeError
    | _, _, true =>
      match v with
      | .bytes b => done (.bytes b)
      | _ => fail .typeError
    | _, _, _ => fail .typeError
  | _ => fail .typeError

/-- `struct.unpack(fmt, b)`: a native `'f'`, or a format that begins with `<`. -/
def structUnpackM (fmt : String) (b : Bytes) : M PVal :=
  match fmt with
  | "f" => andThen (pyM (unpackNativeF b)) fun x => done (.seq [.float x])
  | fmt => andThen (pyM (structUnpack fmt b)) fun vs => done (.seq (vs.map ofVal))

/-- `struct.pack(fmt, …)`. -/
def structPackM (fmt : String) (vs : List PVal) : M PVal :=
  match asObjects vs with
  | none => fail .structError
  | some ws =>
    match fmt with
    | "f" =>
      match ws with
      | [w] => andThen (pyM (W.packNative w)) fun b => done (.bytes b)
      | _ => fail .structError
    | fmt => andThen (pyM (W.pack fmt [.ok ws])) fun b => done (.bytes b)

/-- `struct.unpack(…)`, `struct.pack(…)`, `int.from_bytes(…)`. -/
def libMethod (l f : Name) (as : Args) : M PVal :=
  match Nat.beq l n!"struct", Nat.beq l n!"int" with
  | true, _ =>
    match Nat.beq f n!"unpack", Nat.beq f n!"pack", as with
    | true, _, ⟨[.text fmt, .bytes b], []⟩ => structUnpackM fmt b
    | _, true, ⟨.text fmt :: vs, []⟩ => structPackM fmt vs
    | _, _, _ => fail .typeError
  | _, true =>
    match Nat.beq f n!"from_bytes", as with
    | true, ⟨[.bytes b], kw⟩ =>
      match find n!"byteorder" kw, find n!"signed" kw with
      | some (.text order), some (.bool signed) =>
        match order with
        | "little" => done (.h (.int (intFromBytes b signed)))
        | _ => fail .typeError
      | _, _ => fail .typeError
    | _, _ => fail .typeError
  | _, _ => fail .typeError

/-- `b.rstrip(b'\0')`, `b.decode()`, `b.join(…)` of `bytes`. -/
def bytesMethod (b : Bytes) (f : Name) (as : Args) : M PVal :=
  match Nat.beq f n!"rstrip", Nat.beq f n!"decode", Nat.beq f n!"join", as with
  | true, _, _, ⟨[.bytes [0]], []⟩ => done (.bytes (rstripNul b))
  | _, true, _, ⟨[], []⟩ => andThen (pyM (strDecode b)) fun s => done (.h (.str s))
  | _, _, true, ⟨[.parts bs], []⟩ =>
    match b with
    | [] => done (.bytes bs.flatten)
    | _ => fail .typeError
  | _, _, true, ⟨[.seq []], []⟩ => done (.bytes [])
  | _, _, _, _ => fail .typeError

/-- The arguments of `o.to_bytes(length, 'little', signed=signed)`. -/
def toBytesArgs (as : Args) : Option (Int × Bool) :=
  match as with
  | ⟨[.h (.int n), .text order], [(y, .bool signed)]⟩ =>
    match order, Nat.beq y n!"signed" with
    | "little", true => some (n, signed)
    | _, _ => none
  | _ => none

/-- `o.encode()`, `o.encode('utf-8')`, `i.to_bytes(…)` of a string or a number, `l.append(…)` of a list: methods of objects that are not
of a class of the package.  An object without that method raises `AttributeError`. -/
def plainMethod (v : HVal) (f : Name) (as : Args) : M PVal :=
  match Nat.beq f n!"encode", Nat.beq f n!"to_bytes", Nat.beq f n!"append" with
  | true, _, _ =>
    match as with
    | ⟨[], []⟩ => andThen (pyM (W.encode v)) fun b => done (.bytes b)
    | ⟨[.text coding], []⟩ =>
      match coding with
      | "utf-8" => andThen (pyM (W.encode v)) fun b => done (.bytes b)
      | _ => fail .typeError
    | _ => fail .typeError
  | _, true, _ =>
    match v with
    | .int i =>
      match toBytesArgs as with
      | some (n, signed) => andThen (pyM (intToBytes i n.toNat signed)) fun b => done (.bytes b)
      | none => fail .typeError
    | _ => fail .attributeError
  | _, _, true =>
    match as with
    | ⟨[.h w], []⟩ => andThen (HReader.append v w) fun _ => done (.h .none)
    | _ => fail .typeError
  | _, _, _ => fail .attributeError

/-- `v.f(…)` for an object: a method of its class. -/
def objMethod (call : Call) (v : HVal) (f : Name) (as : Args) : M PVal := fun H s =>
  match W.cell H v with
  | some (.record c _) => call (.h v) (Name.ofStr c) f as H s
  | _ => plainMethod v f as H s

/-- `v.f(…)`. -/
def invoke (call : Call) (v : PVal) (f : Name) (as : Args) : M PVal :=
  match v with
  | .handler => call .handler n!"ByteHandler" f as
  | .cls c => call (.cls c) c f as
  | .lib l => libMethod l f as
  | .bytes b => bytesMethod b f as
  | .h v => objMethod call v f as
  | .version v => call (.version v) n!"Version" f as
  | _ => fail .attributeError

/-- `v(…)`. -/
def apply (v : PVal) (as : Args) : M PVal :=
  match v with
  | .cls c => construct c as
  | .lib f => libCall f as
  | _ => fail .typeError

/-- One element of a sequence after the other: what to do with an element, and then with the others. -/
def forEach (f : HVal → M (List PVal) → M (List PVal)) : List HVal → M (List PVal)
  | [] => done []
  | v :: vs => f v (forEach f vs)

/-! ## expressions -/

mutual

/-- Evaluate an expression. -/
def eval (call : Call) (m : Name) (e : Ex) (ρ : Env) {β : Type} (k : PVal → M β) : M β :=
  match e with
  | .name x => nameK m x ρ k
  | .int i => k (.h (.int i))
  | .float bits => k (.h (.float ⟨BitVec.ofNat 64 bits⟩))
  | .str s => k (.text s)
  | .bytes b => k (.bytes (b.map UInt8.ofNat))
  | .none => k (.h .none)
  | .bool b => k (.bool b)
  | .attr e a => eval call m e ρ fun v => andThen (attrM call v a) k
  | .call (.attr e f) as => eval call m e ρ fun v => evalArgs call m as ρ fun pos kw => andThen (invoke call v f ⟨pos, kw⟩) k
  | .call f as => eval call m f ρ fun v => evalArgs call m as ρ fun pos kw => andThen (apply v ⟨pos, kw⟩) k
  | .tuple es => evalArgs call m es ρ fun pos _ => andThen (tupleM pos) k
  | .list es => evalArgs call m es ρ fun pos _ => andThen (listM pos) k
  | .compare l tail => eval call m l ρ fun v => evalCmp call m v tail ρ k
  | .bin op l r => eval call m l ρ fun v => eval call m r ρ fun w => andThen (binV op v w) k
  | .neg e => eval call m e ρ fun v => andThen (binV .sub (.h (.int 0)) v) k
  | .not e => eval call m e ρ fun v => andThen (truth v) fun b => k (.bool (!b))
  | .and l r => eval call m l ρ fun v => andThen (truth v) fun b => andThen (branch b (eval call m r ρ done) (done v)) k
  | .ifExp c a b =>
    eval call m c ρ fun v => andThen (truth v) fun t => andThen (branch t (eval call m a ρ done) (eval call m b ρ done)) k
  | .index e i => eval call m e ρ fun v => eval call m i ρ fun w => andThen (indexM v w) k
  | .slice e i j => eval call m e ρ fun v => eval call m i ρ fun w => eval call m j ρ fun x => andThen (sliceM v w x) k
  | .comp elt x it =>
    eval call m it ρ fun v => andThen (iterM v) fun vs =>
      andThen (forEach (fun v more => setK x (.h v) ρ fun ρ' => eval call m elt ρ' fun w => andThen more fun ws => done (w :: ws)) vs) fun ws =>
      andThen (collect ws) k
  | .compIf elt x it c =>
    eval call m it ρ fun v => andThen (iterM v) fun vs =>
      andThen (forEach (fun v more => setK x (.h v) ρ fun ρ' => eval call m c ρ' fun t => andThen (truth t) fun t =>
        branch t (eval call m elt ρ' fun w => andThen more fun ws => done (w :: ws)) more) vs) fun ws =>
      andThen (collect ws) k
  | _ => fail .typeError

/-- Evaluate a list of arguments, left to right. -/
def evalArgs (call : Call) (m : Name) (e : Ex) (ρ : Env) {β : Type} (k : List PVal → List (Name × PVal) → M β) : M β :=
  match e with
  | .argNil => k [] []
  | .arg e rest => eval call m e ρ fun v => evalArgs call m rest ρ fun pos kw => k (v :: pos) kw
  | .kw x e rest => eval call m e ρ fun v => evalArgs call m rest ρ fun pos kw => k pos ((x, v) :: kw)
  | .star e rest =>
    eval call m e ρ fun v => andThen (iterM v) fun vs => evalArgs call m rest ρ fun pos kw => k (vs.map .h ++ pos) kw
  | _ => fail .typeError

/-- Evaluate the rest of a comparison `v op e op e …`: `and` between the parts. -/
def evalCmp (call : Call) (m : Name) (v : PVal) (e : Ex) (ρ : Env) {β : Type} (k : PVal → M β) : M β :=
  match e with
  | .cmp op r tail =>
    eval call m r ρ fun w => andThen (cmpM call op v w) fun b =>
      match tail with
      | .cmpNil => k b
      | tail => andThen (truth b) fun t => andThen (branch t (evalCmp call m w tail ρ done) (done b)) k
  | _ => fail .typeError

end

/-! ## statements and functions -/

/-- How a block ends: at its end, or with `return`. -/
inductive Flow where
  | next (ρ : Env)
  | ret (v : PVal)

/-- Go on after a block. -/
def after (fl : Flow) (k : Env → M Flow) : M Flow :=
  match fl with
  | .next ρ => k ρ
  | .ret v => done (.ret v)

/-- `for x in range(…): body`, `n` more times beginning with `i`. -/
def forRange (body : Env → M Flow) (x : Name) : Nat → Nat → Env → M Flow
  | 0, _, ρ => done (.next ρ)
  | n + 1, i, ρ => setK x (.h (.int i)) ρ fun ρ' => andThen (body ρ') fun fl => after fl (forRange body x n (i + 1))

/-- Execute a block. -/
def exec (call : Call) (m : Name) : St → Env → M Flow
  | .done, ρ => done (.next ρ)
  | .assign x e rest, ρ => eval call m e ρ fun v => setK x v ρ (exec call m rest)
  | .aug x op e rest, ρ =>
    nameK m x ρ fun v => eval call m e ρ fun w => andThen (binV op v w) fun u => setK x u ρ (exec call m rest)
  | .unpack xs e rest, ρ => eval call m e ρ fun v => andThen (iterM v) fun vs => unpackK xs vs ρ (exec call m rest)
  | .setAttr o a e rest, ρ =>
    eval call m e ρ fun v => eval call m o ρ fun w => andThen (setAttrM w a v) fun _ => exec call m rest ρ
  | .expr e rest, ρ => eval call m e ρ fun _ => exec call m rest ρ
  | .assert c rest, ρ => eval call m c ρ fun v => andThen (truth v) fun t => branch t (exec call m rest ρ) (fail .assertionError)
  | .ite c a b rest, ρ =>
    eval call m c ρ fun v => andThen (truth v) fun t =>
      andThen (branch t (exec call m a ρ) (exec call m b ρ)) fun fl => after fl (exec call m rest)
  | .forIn x it body rest, ρ =>
    eval call m it ρ fun v =>
      match v with
      | .range n => andThen (forRange (exec call m body) x n.toNat 0 ρ) fun fl => after fl (exec call m rest)
      | _ => fail .typeError
  | .ret e, ρ => eval call m e ρ fun v => done (.ret v)
  | .raise _, _ => fail .notImplementedError

/-- The parameters of a function with their arguments: by position, by keyword, by default. -/
def bindArgs (m : Name) : List (Name × Ex) → List PVal → List (Name × PVal) → Option Env
  | [], [], _ => some []
  | [], _ :: _, _ => none
  | (x, _) :: ps, v :: pos, kw =>
    match bindArgs m ps pos kw with
    | some ρ => some ((x, v) :: ρ)
    | none => none
  | (x, d) :: ps, [], kw =>
    match find x kw with
    | some v =>
      match bindArgs m ps [] kw with
      | some ρ => some ((x, v) :: ρ)
      | none => none
    | none =>
      match constVal m d with
      | some v =>
        match bindArgs m ps [] kw with
        | some ρ => some ((x, v) :: ρ)
        | none => none
      | none => none

/-- Are all arguments given by keyword parameters of the function? -/
def knownKw (ps : List (Name × Ex)) : List (Name × PVal) → Bool
  | [] => true
  | (x, _) :: rest =>
    match find x ps with
    | some _ => knownKw ps rest
    | none => false

/-- The arguments a function gets: a method gets the object, a class method the class. -/
def withSelf (f : Fun) (recv : PVal) (c : Name) (pos : List PVal) : List PVal :=
  match f.kind with
  | .method => recv :: pos
  | .property => recv :: pos
  | .classMethod => .cls c :: pos
  | .staticMethod => pos

/-- A block that ends without `return` gives `None`. -/
def result (fl : Flow) : M PVal :=
  match fl with
  | .ret v => done v
  | .next _ => done (.h .none)

/-- Run the function `f` of the class `c`. -/
def run (call : Call) : Call := fun recv c f as =>
  match method c f with
  | none => fail .attributeError
  | some (m, g) =>
    match knownKw g.params as.kw with
    | false => fail .typeError
    | true =>
      match bindArgs m g.params (withSelf g recv c as.pos) as.kw with
      | none => fail .typeError
      | some ρ => andThen (exec call m g.body ρ) result

/-- Call the function `f` of the class `c`, with at most `n` calls inside each other (Python: `sys.setrecursionlimit`). -/
def callN : Nat → Call
  | 0, _, _, _, _ => fail .recursionError
  | n + 1, recv, c, f, as => run (callN n) recv c f as

end Genie.Src
