import Verif.Model.Heap
import Verif.Model.Datfile
/-!
# `GenieClass.write_*` on objects

The writing side of `/repo/src/genieutils/common.py` on a heap, with Python's dynamic types: every argument may be any object, and what
does not fit raises what Python raises.  Nothing here changes an object, so a writer is a function of the heap.  An argument that is an
expression comes as `Py HVal`: evaluating it may raise, before the function is entered.
-/

namespace Genie

/-- A finite binary64 times `2^1075`, an integer. -/
def F.scaledValue (d : Nat) : Int :=
  (if F.sign64 d = 0 then 1 else -1) * (if F.exp64 d = 0 then F.man64 d * 2 else (2 ^ 52 + F.man64 d) * 2 ^ F.exp64 d : Nat)

namespace W

/-- How a `to_bytes` method calls the `to_bytes` methods of other objects. -/
abbrev Rec := HVal → Version → Py Bytes

/-- `o.name` where `o` is an expression. -/
def attrOf (H : Heap) (o : Py HVal) (name : PyStr) : Py HVal := do
  attr H (← o) name

/-- The elements a `for` loop or `*o` goes through (Python): of a list, a tuple or a string; `TypeError` if `o` is not iterable. -/
def iter (H : Heap) (o : Py HVal) : Py (List HVal) := do
  match ← o with
  | .str s => .ok (s.map fun c => .str [c])
  | o =>
    match cell H o with
    | some (.list items) | some (.tuple items) => .ok items
    | _ => .error .typeError

/-- `len(o)` (Python). -/
def len (H : Heap) (o : Py HVal) : Py Nat := do
  match ← o with
  | .str s => .ok s.length
  | o =>
    match cell H o with
    | some (.list items) | some (.tuple items) => .ok items.length
    | _ => .error .typeError

/-- `o == n` with an `int` on the right (Python): numbers compare by value, other objects are different. -/
def eqInt (o : Py HVal) (n : Int) : Py Bool := do
  match ← o with
  | .int i => .ok (decide (i = n))
  | .float x => .ok (F.exp64 x.bits.toNat != 2047 && decide (F.scaledValue x.bits.toNat = n * 2 ^ 1075))
  | _ => .ok false

/-- `o != n` with an `int` on the right (Python). -/
def neInt (o : Py HVal) (n : Int) : Py Bool := do
  let b ← eqInt o n
  return !b

/-- `o >= n` with an `int` on the right (Python): `TypeError` if `o` is no number. -/
def geInt (o : Py HVal) (n : Int) : Py Bool := do
  match ← o with
  | .int i => .ok (decide (n ≤ i))
  | .float x =>
    if F.exp64 x.bits.toNat = 2047 then .ok (F.man64 x.bits.toNat == 0 && F.sign64 x.bits.toNat == 0)
    else .ok (decide (n * 2 ^ 1075 ≤ F.scaledValue x.bits.toNat))
  | _ => .error .typeError

/-- `if c1: if c2: … x = w` with `x = b''` before it. -/
def when (conds : List (Py Bool)) (w : Py Bytes) : Py Bytes :=
  match conds with
  | [] => w
  | c :: cs =>
    match c with
    | .error e => .error e
    | .ok true => when cs w
    | .ok false => .ok []

/-- `w if o is not None else b''`. -/
def ifNotNone (o : Py HVal) (w : Py Bytes) : Py Bytes := do
  match ← o with
  | .none => .ok []
  | _ => w

/-- `o.to_bytes(length, 'little', signed=signed)`: the method of `int`; instances of the record classes have a method of that name that
takes no such arguments (`TypeError`), other objects have none. -/
def intToBytes (H : Heap) (o : HVal) (length : Nat) (signed : Bool) : Py Bytes :=
  match o with
  | .int i => Int_to_bytes i length signed
  | o =>
    match cell H o with
    | some (.record _ _) => .error .typeError
    | _ => .error .attributeError

/-- `write_int_8` — `/repo/src/genieutils/common.py:47-48`. -/
def int8 (H : Heap) (o : Py HVal) : Py Bytes := do intToBytes H (← o) 1 false
/-- `write_int_16(value, signed)` — `/repo/src/genieutils/common.py:53-56`. -/
def int16 (H : Heap) (o : Py HVal) (signed : Bool := true) : Py Bytes := do intToBytes H (← o) 2 signed
/-- `write_int_16(value, if_=cond)` — `/repo/src/genieutils/common.py:53-56`: the value is evaluated in any case. -/
def int16If (H : Heap) (o : Py HVal) (if_ : Bool) : Py Bytes := do
  let o ← o
  if !if_ then .ok [] else intToBytes H o 2 true
/-- `write_int_32(value, signed)` — `/repo/src/genieutils/common.py:61-62`. -/
def int32 (H : Heap) (o : Py HVal) (signed : Bool := true) : Py Bytes := do intToBytes H (← o) 4 signed
/-- A natural number as an argument, such as `len(…)`. -/
def nat (n : Py Nat) : Py HVal := do return .int (← n)

/-- `struct.pack('f', o)` (native format): an `int` is converted first, `struct.error` if it is too large or if `o` is no number. -/
def packNative (o : HVal) : Py Bytes :=
  match o with
  | .float x => packNativeF x
  | .int i =>
    match F.ofInt i with
    | none => .error .structError
    | some d => packNativeF ⟨BitVec.ofNat 64 d⟩
  | _ => .error .structError

/-- `write_float` — `/repo/src/genieutils/common.py:67-68`, `/repo/src/genieutils/datatypes.py:32-34`. -/
def float (o : Py HVal) : Py Bytes := do packNative (← o)

/-- `o.encode('utf-8')`: only strings have that method. -/
def encode (o : HVal) : Py Bytes :=
  match o with
  | .str s => strEncode s
  | _ => .error .attributeError

/-- `write_debug_string` — `/repo/src/genieutils/common.py:38-42`. -/
def debugString (o : Py HVal) : Py Bytes := do
  let encoded ← encode (← o)
  joinB [writeInt16 0x0A60 (signed := false), writeInt16 encoded.length (signed := false), .ok encoded]

/-- `write_string` — `/repo/src/genieutils/common.py:44-45`, `/repo/src/genieutils/datatypes.py:10-15` with a positive length. -/
def string (length : Nat) (o : Py HVal) : Py Bytes := do
  let encoded ← encode (← o)
  let length := if length = 0 then encoded.length + 1 else length
  return encoded ++ List.replicate (length - encoded.length) 0

/-- `b''.join(w(v) for v in o)` — `/repo/src/genieutils/common.py:50-51,58-59,64-65,70-71`. -/
def array (H : Heap) (w : Py HVal → Py Bytes) (o : Py HVal) : Py Bytes := do
  let vs ← iter H o
  joinB (vs.map fun v => w (.ok v))

/-- `write_int_8_array` — `/repo/src/genieutils/common.py:50-51`. -/
def int8Array (H : Heap) (o : Py HVal) : Py Bytes := array H (int8 H) o
/-- `write_int_16_array` — `/repo/src/genieutils/common.py:58-59`. -/
def int16Array (H : Heap) (o : Py HVal) : Py Bytes := array H (int16 H) o
/-- `write_int_32_array` — `/repo/src/genieutils/common.py:64-65`. -/
def int32Array (H : Heap) (o : Py HVal) : Py Bytes := array H (int32 H) o
/-- `write_float_array` — `/repo/src/genieutils/common.py:70-71`. -/
def floatArray (H : Heap) (o : Py HVal) : Py Bytes := array H float o

/-- `write_class` — `/repo/src/genieutils/common.py:73-77` (`retval or b''` is `retval`). -/
def cls (rec : Rec) (o : Py HVal) (version : Version) : Py Bytes := do rec (← o) version

/-- `write_class_array` — `/repo/src/genieutils/common.py:79-83`. -/
def classArray (H : Heap) (rec : Rec) (o : Py HVal) (version : Version) : Py Bytes := do
  let vs ← iter H o
  joinB ((vs.filter (fun v => decide (v ≠ .none))).map fun v => rec v version)

/-! ## `struct.pack` -/

/-- One element of `struct.pack('<…', …)`: only numbers can be packed. -/
def packCode (c : Code) (o : HVal) : Py Bytes :=
  match o with
  | .int i => Genie.packCode c (.int i)
  | .float x => Genie.packCode c (.float x)
  | _ => .error .structError

/-- The elements, left to right. -/
def packCodes : List Code → List HVal → Py Bytes
  | c :: cs, v :: vs =>
    match packCode c v with
    | .error e => .error e
    | .ok b =>
      match packCodes cs vs with
      | .error e => .error e
      | .ok bs => .ok (b ++ bs)
  | _, _ => .ok []

/-- The arguments of a call, left to right; `*o` stands for any number of them. -/
def args : List (Py (List HVal)) → Py (List HVal)
  | [] => .ok []
  | a :: as => do
    let vs ← a
    let ws ← args as
    return vs ++ ws

/-- One argument. -/
def arg (o : Py HVal) : Py (List HVal) := do return [← o]

/-- `struct.pack(fmt, …)`: the arguments are evaluated, their number is checked, then they are packed left to right. -/
def pack (fmt : String) (as : List (Py (List HVal))) : Py Bytes := do
  let vs ← args as
  match parseFmt fmt with
  | none => .error .structError
  | some cs => if cs.length = vs.length then packCodes cs vs else .error .structError

end W
end Genie
