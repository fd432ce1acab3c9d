import Verif.Model.Common
import Verif.Py.Utf8
/-!
# Python objects with identity

The rest of the model treats an object as the value it holds.  Here objects have an identity: a heap of cells, references into it, and the
readers of `/repo/src/genieutils` once more, this time building objects (`Verif/Model/HeapReaders.lean`).  `int`, `float`, `str` and `None`
are immutable and have no identity here; lists, tuples and dataclass instances do.
-/

namespace Genie

/-- What a variable, a list slot or an attribute holds: an immutable scalar, or a reference to an object. -/
inductive HVal where
  | none
  | int (i : Int)
  | float (x : PyFloat)
  | str (s : PyStr)
  | ref (address : Nat)
deriving DecidableEq, Inhabited

/-- An object: a `list`, a `tuple`, or an instance of a dataclass with its attributes in the order of their definition. -/
inductive Cell where
  | list (items : List HVal)
  | tuple (items : List HVal)
  | record (cls : PyStr) (attrs : List (PyStr × HVal))
deriving DecidableEq, Inhabited

/-- All objects created so far; the address of an object is its index. -/
abbrev Heap := List Cell

/-- A function that reads from a `ByteHandler` and works on objects. -/
def HReader (α : Type) := Heap → ByteHandler → Py (α × Heap × ByteHandler)

instance : Monad HReader where
  pure a := fun H s => .ok (a, H, s)
  bind r f := fun H s =>
    match r H s with
    | .error e => .error e
    | .ok (a, H', s') => f a H' s'

namespace HReader

/-- A computation that creates and changes no objects. -/
def lift (r : Reader α) : HReader α := fun H s =>
  match r s with
  | .error e => .error e
  | .ok (a, s') => .ok (a, H, s')

/-- Raise an exception. -/
def raise (e : PyErr) : HReader α := fun _ _ => .error e

/-- Create an object (Python: evaluation of `[…]`, `(…, …)`, `Class(…)`): its address is new. -/
def alloc (c : Cell) : HReader HVal := fun H s => .ok (.ref H.length, H ++ [c], s)

/-- The object a value refers to; on a scalar, the exception the caller names. -/
def cell (v : HVal) (e : PyErr) : HReader Cell := fun H s =>
  match v with
  | .ref a =>
    match H[a]? with
    | some c => .ok (c, H, s)
    | none => .error e
  | _ => .error e

/-- Change an object in place. -/
def update (v : HVal) (c : Cell) : HReader PUnit := fun H s =>
  match v with
  | .ref a => .ok ((), H.set a c, s)
  | _ => .error .typeError

/-- The value of the attribute `name` in a list of attributes. -/
def lookup (name : PyStr) : List (PyStr × HVal) → Option HVal
  | [] => Option.none
  | (n, v) :: rest => if n = name then some v else lookup name rest

/-- The attributes with `name` set to `v`. -/
def assign (name : PyStr) (v : HVal) : List (PyStr × HVal) → List (PyStr × HVal)
  | [] => []
  | (n, w) :: rest => if n = name then (n, v) :: rest else (n, w) :: assign name v rest

/-- `o.name` (Python): `AttributeError` if there is no such attribute. -/
def getAttr (o : HVal) (name : PyStr) : HReader HVal := do
  let c ← cell o .attributeError
  match c with
  | .record _ attrs =>
    match lookup name attrs with
    | some v => pure v
    | none => raise .attributeError
  | _ => raise .attributeError

/-- Names that an instance has from its class: the methods (`from_bytes…`, `to_bytes…`, `write_…`, `parse`, `save`), the properties
`unit_pointers` (`/repo/src/genieutils/civ.py:40-42`) and `graphic_pointers` (`/repo/src/genieutils/datfile.py:116-118`), and what Python
itself defines (`__…`). -/
def ofClass (name : PyStr) : Bool :=
  (lit "__").isPrefixOf name || (lit "from_bytes").isPrefixOf name || (lit "to_bytes").isPrefixOf name || (lit "write_").isPrefixOf name ||
  decide (name = lit "parse") || decide (name = lit "save") || decide (name = lit "unit_pointers") || decide (name = lit "graphic_pointers")

/-- `o.name = v` (Python).  An attribute that is not there is created: the classes are `@dataclass(slots=True)`, but their base class
`GenieClass` (`/repo/src/genieutils/common.py:26`) has no `__slots__`, so every instance has a `__dict__`.  (Assigning to a name of the class,
such as `data.to_bytes = …`, replaces code; such programs are not modelled, and the exception here is not Python's.) -/
def setAttr (o : HVal) (name : PyStr) (v : HVal) : HReader PUnit := do
  let c ← cell o .attributeError
  match c with
  | .record cls attrs =>
    match lookup name attrs with
    | some _ => update o (.record cls (assign name v attrs))
    | none => if ofClass name then raise .attributeError else update o (.record cls (attrs ++ [(name, v)]))
  | _ => raise .attributeError

/-- `len(o)` of a list or tuple (Python). -/
def len (o : HVal) : HReader Nat := do
  let c ← cell o .typeError
  match c with
  | .list items => pure items.length
  | .tuple items => pure items.length
  | .record _ _ => raise .typeError

/-- `o[i]` of a list or tuple with `0 ≤ i` (Python). -/
def getItem (o : HVal) (i : Nat) : HReader HVal := do
  let c ← cell o .typeError
  match c with
  | .list items =>
    match items[i]? with
    | some v => pure v
    | none => raise .indexError
  | .tuple items =>
    match items[i]? with
    | some v => pure v
    | none => raise .indexError
  | .record _ _ => raise .typeError

/-- `o[i] = v` of a list with `0 ≤ i` (Python); tuples raise `TypeError`. -/
def setItem (o : HVal) (i : Nat) (v : HVal) : HReader PUnit := do
  let c ← cell o .typeError
  match c with
  | .list items => if i < items.length then update o (.list (items.set i v)) else raise .indexError
  | _ => raise .typeError

/-- `o.append(v)` of a list (Python); tuples and instances have no such method. -/
def append (o : HVal) (v : HVal) : HReader PUnit := do
  let c ← cell o .attributeError
  match c with
  | .list items => update o (.list (items ++ [v]))
  | _ => raise .attributeError

/-- `o.pop()` of a list (Python): `IndexError` on an empty list; tuples and instances have no such method.  (The removed element, which
no modelled program uses, is not returned.) -/
def pop (o : HVal) : HReader PUnit := do
  let c ← cell o .attributeError
  match c with
  | .list items => if items = [] then raise .indexError else update o (.list items.dropLast)
  | _ => raise .attributeError

/-- `o.insert(i, v)` of a list with `0 ≤ i` (Python): at the end if `i` is too large; tuples and instances have no such method. -/
def insert (o : HVal) (i : Nat) (v : HVal) : HReader PUnit := do
  let c ← cell o .attributeError
  match c with
  | .list items => update o (.list (items.take i ++ [v] ++ items.drop i))
  | _ => raise .attributeError

/-- `del o[i]` of a list with `0 ≤ i` (Python); tuples and instances raise `TypeError`. -/
def delItem (o : HVal) (i : Nat) : HReader PUnit := do
  let c ← cell o .typeError
  match c with
  | .list items => if i < items.length then update o (.list (items.take i ++ items.drop (i + 1))) else raise .indexError
  | _ => raise .typeError

/-- `del o[i:j]` of a list with `0 ≤ i` and `0 ≤ j` (Python): bounds that are too large are no error, and nothing happens if `j ≤ i`;
tuples and instances raise `TypeError`. -/
def delSlice (o : HVal) (i j : Nat) : HReader PUnit := do
  let c ← cell o .typeError
  match c with
  | .list items => update o (.list (items.take i ++ items.drop (max i j)))
  | _ => raise .typeError

end HReader

namespace W

/-- The object a value refers to. -/
def cell (H : Heap) (v : HVal) : Option Cell :=
  match v with
  | .ref a => H[a]?
  | _ => none

/-- `o.name` (Python). -/
def attr (H : Heap) (o : HVal) (name : PyStr) : Py HVal :=
  match cell H o with
  | some (.record _ attrs) =>
    match HReader.lookup name attrs with
    | some v => .ok v
    | none => .error .attributeError
  | _ => .error .attributeError

/-- `o[i]` with `0 ≤ i` (Python): of a list, a tuple or a string. -/
def item (H : Heap) (o : Py HVal) (i : Nat) : Py HVal := do
  match ← o with
  | .str s =>
    match s[i]? with
    | some c => .ok (.str [c])
    | none => .error .indexError
  | o =>
    match cell H o with
    | some (.list items) | some (.tuple items) =>
      match items[i]? with
      | some v => .ok v
      | none => .error .indexError
    | _ => .error .typeError

/-- `bool(o)` (Python). -/
def truthy (H : Heap) (o : HVal) : Bool :=
  match o with
  | .none => false
  | .int i => i != 0
  | .float x => x.bits.toNat % 2 ^ 63 != 0
  | .str s => !s.isEmpty
  | .ref _ =>
    match cell H o with
    | some (.list items) | some (.tuple items) => !items.isEmpty
    | _ => true

end W

namespace HReader

/-- Look at the objects. -/
def look (f : Heap → Py α) : HReader α := fun H s =>
  match f H with
  | .ok a => .ok (a, H, s)
  | .error e => .error e

/-- `bool(o)` (Python). -/
def truthy (o : HVal) : HReader Bool := look fun H => .ok (W.truthy H o)

/-- `o[i]` with `0 ≤ i` of any object (Python). -/
def item (o : HVal) (i : Nat) : HReader HVal := look fun H => W.item H (.ok o) i

/-! ## `ByteHandler` methods that build objects, `/repo/src/genieutils/common.py` -/

/-- A method that returns an `int`. -/
def int (r : Reader Int) : HReader HVal := do
  let i ← lift r
  return .int i

/-- A method that returns a `float`. -/
def float (r : Reader PyFloat) : HReader HVal := do
  let x ← lift r
  return .float x

/-- `for i in range(n): elements.append(r())`. -/
def appendLoop (elements : HVal) (r : HReader HVal) : Nat → HReader PUnit
  | 0 => pure ()
  | n + 1 => do
    let element ← r
    append elements element
    appendLoop elements r n

/-- `elements = []`, `for i in range(size): elements.append(r())`, `return elements` — the body of `read_int_8_array`,
`read_int_16_array`, `read_int_32_array`, `read_float_array`, `read_class_array` and `read_class_array_with_param`
(`/repo/src/genieutils/common.py:113-117,164-168,200-204,223-227,244-249,273-278`).  The `noteLossy` line is ghost. -/
def readArray (r : HReader HVal) (size : Int) (countStored : Bool := false) : HReader HVal := do
  lift (noteLossy (!countStored && decide (size < 0)))
  let elements ← alloc (.list [])
  appendLoop elements r size.toNat
  return elements

/-- `read_int_8_array` — `/repo/src/genieutils/common.py:113-117`. -/
def readInt8Array (size : Int) : HReader HVal := readArray (int Genie.readInt8) size
/-- `read_int_16_array` — `/repo/src/genieutils/common.py:164-168`. -/
def readInt16Array (size : Int) : HReader HVal := readArray (int Genie.readInt16) size
/-- `read_int_32_array` — `/repo/src/genieutils/common.py:200-204`. -/
def readInt32Array (size : Int) : HReader HVal := readArray (int Genie.readInt32) size
/-- `read_float_array` — `/repo/src/genieutils/common.py:223-227`. -/
def readFloatArray (size : Int) : HReader HVal := readArray (float Genie.readFloat) size

/-- `read_int_8_array_2` — `/repo/src/genieutils/common.py:119-122`. -/
def readInt8Array2 : HReader HVal := do
  let element_0 ← int Genie.readInt8
  let element_1 ← int Genie.readInt8
  alloc (.tuple [element_0, element_1])

/-- `read_int_8_array_3` — `/repo/src/genieutils/common.py:124-128`. -/
def readInt8Array3 : HReader HVal := do
  let element_0 ← int Genie.readInt8
  let element_1 ← int Genie.readInt8
  let element_2 ← int Genie.readInt8
  alloc (.tuple [element_0, element_1, element_2])

/-- `read_int_8_array_5` — `/repo/src/genieutils/common.py:130-136`. -/
def readInt8Array5 : HReader HVal := do
  let element_0 ← int Genie.readInt8
  let element_1 ← int Genie.readInt8
  let element_2 ← int Genie.readInt8
  let element_3 ← int Genie.readInt8
  let element_4 ← int Genie.readInt8
  alloc (.tuple [element_0, element_1, element_2, element_3, element_4])

/-- `read_int_8_array_10` — `/repo/src/genieutils/common.py:147-159`. -/
def readInt8Array10 : HReader HVal := do
  let element_0 ← int Genie.readInt8
  let element_1 ← int Genie.readInt8
  let element_2 ← int Genie.readInt8
  let element_3 ← int Genie.readInt8
  let element_4 ← int Genie.readInt8
  let element_5 ← int Genie.readInt8
  let element_6 ← int Genie.readInt8
  let element_7 ← int Genie.readInt8
  let element_8 ← int Genie.readInt8
  let element_9 ← int Genie.readInt8
  alloc (.tuple [element_0, element_1, element_2, element_3, element_4, element_5, element_6, element_7, element_8, element_9])

/-- `read_int_16_array_2` — `/repo/src/genieutils/common.py:170-173`. -/
def readInt16Array2 : HReader HVal := do
  let element_0 ← int Genie.readInt16
  let element_1 ← int Genie.readInt16
  alloc (.tuple [element_0, element_1])

/-- `read_int_16_array_4` — `/repo/src/genieutils/common.py:181-186`. -/
def readInt16Array4 : HReader HVal := do
  let element_0 ← int Genie.readInt16
  let element_1 ← int Genie.readInt16
  let element_2 ← int Genie.readInt16
  let element_3 ← int Genie.readInt16
  alloc (.tuple [element_0, element_1, element_2, element_3])

/-- `read_int_16_array_6` — `/repo/src/genieutils/common.py:188-195`. -/
def readInt16Array6 : HReader HVal := do
  let element_0 ← int Genie.readInt16
  let element_1 ← int Genie.readInt16
  let element_2 ← int Genie.readInt16
  let element_3 ← int Genie.readInt16
  let element_4 ← int Genie.readInt16
  let element_5 ← int Genie.readInt16
  alloc (.tuple [element_0, element_1, element_2, element_3, element_4, element_5])

/-- `read_int_32_array_10` — `/repo/src/genieutils/common.py:206-218`. -/
def readInt32Array10 : HReader HVal := do
  let element_0 ← int Genie.readInt32
  let element_1 ← int Genie.readInt32
  let element_2 ← int Genie.readInt32
  let element_3 ← int Genie.readInt32
  let element_4 ← int Genie.readInt32
  let element_5 ← int Genie.readInt32
  let element_6 ← int Genie.readInt32
  let element_7 ← int Genie.readInt32
  let element_8 ← int Genie.readInt32
  let element_9 ← int Genie.readInt32
  alloc (.tuple [element_0, element_1, element_2, element_3, element_4, element_5, element_6, element_7, element_8, element_9])

/-- `read_float_array_3` — `/repo/src/genieutils/common.py:234-238`. -/
def readFloatArray3 : HReader HVal := do
  let element_0 ← float Genie.readFloat
  let element_1 ← float Genie.readFloat
  let element_2 ← float Genie.readFloat
  alloc (.tuple [element_0, element_1, element_2])

/-- `read_class` — `/repo/src/genieutils/common.py:240-242`. -/
def readClass (fromBytes : HReader HVal) : HReader HVal := fromBytes

/-- `read_class_array` — `/repo/src/genieutils/common.py:244-249`. -/
def readClassArray (fromBytes : HReader HVal) (size : Int) (countStored : Bool := false) : HReader HVal :=
  readArray fromBytes size countStored

/-- `read_class_array_3` — `/repo/src/genieutils/common.py:251-255`. -/
def readClassArray3 (fromBytes : HReader HVal) : HReader HVal := do
  let element_0 ← fromBytes
  let element_1 ← fromBytes
  let element_2 ← fromBytes
  alloc (.tuple [element_0, element_1, element_2])

/-- `read_class_array_4` — `/repo/src/genieutils/common.py:257-262`. -/
def readClassArray4 (fromBytes : HReader HVal) : HReader HVal := do
  let element_0 ← fromBytes
  let element_1 ← fromBytes
  let element_2 ← fromBytes
  let element_3 ← fromBytes
  alloc (.tuple [element_0, element_1, element_2, element_3])

/-- `x = None`, `if cond: x = r()`. -/
def readIf (cond : Prop) [Decidable cond] (r : HReader HVal) : HReader HVal :=
  if cond then r else pure .none

/-- `r() if cond else []`: the literal `[]` creates a new list (e.g. `/repo/src/genieutils/graphic.py:134`). -/
def readOrEmpty (cond : Prop) [Decidable cond] (r : HReader HVal) : HReader HVal :=
  if cond then r else alloc (.list [])

/-- Loop body of `read_class_array_with_pointers` for the indices `i, …, i + n - 1`: `element = None`, `if pointers[i]: element =
class_.from_bytes(self)`, `elements.append(element)` (the `noteLossy` line is ghost). -/
def pointersLoop (elements : HVal) (fromBytes : HReader HVal) (pointers : HVal) : Nat → Nat → HReader PUnit
  | _, 0 => pure ()
  | i, n + 1 => do
    let p ← item pointers i
    lift (noteLossy (decide (p ≠ .int 0 ∧ p ≠ .int 1)))
    let t ← truthy p
    let element ← readIf (t = true) fromBytes
    append elements element
    pointersLoop elements fromBytes pointers (i + 1) n

/-- `read_class_array_with_pointers` — `/repo/src/genieutils/common.py:264-271`. -/
def readClassArrayWithPointers (fromBytes : HReader HVal) (size : Int) (pointers : HVal) : HReader HVal := do
  let elements ← alloc (.list [])
  pointersLoop elements fromBytes pointers 0 size.toNat
  return elements

/-- `read_class_array_with_param` — `/repo/src/genieutils/common.py:273-278`. -/
def readClassArrayWithParam (fromBytesWithCount : Int → HReader HVal) (size : Int) (terrains_used_1 : Int) : HReader HVal :=
  readArray (fromBytesWithCount terrains_used_1) size

/-- Bind the next target of a tuple-unpacking assignment to an `int`. -/
def popInt (vs : List Val) (k : Int → List Val → HReader β) : HReader β :=
  match vs with
  | .int i :: vs => k i vs
  | .float _ :: _ => raise .typeError
  | [] => raise .valueError

/-- Bind the next target of a tuple-unpacking assignment to a `float`. -/
def popFloat (vs : List Val) (k : PyFloat → List Val → HReader β) : HReader β :=
  match vs with
  | .float x :: vs => k x vs
  | .int _ :: _ => raise .typeError
  | [] => raise .valueError

/-- End of a tuple-unpacking assignment: left-over values raise `ValueError`. -/
def popDone (vs : List Val) (k : HReader β) : HReader β :=
  match vs with
  | [] => k
  | _ :: _ => raise .valueError

end HReader

end Genie
