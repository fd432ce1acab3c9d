import Verif.Py.Struct
import Verif.Model.Versions
/-!
# `/repo/src/genieutils/datatypes.py` and `/repo/src/genieutils/common.py`

`ByteHandler` methods become actions of the state-and-exception monad `Reader`; `GenieClass.write_*`
methods become functions to `Py Bytes`.

The handler state carries one **ghost** field, `lossy`, that no modelled function ever reads.  The
primitives set it when they accept input whose exact bytes cannot be recovered from the value they
return: a read past the end of the data, a signalling NaN, NUL padding stripped from a debug string,
a negative element count, a slot pointer other than 0 and 1.  It exists only to state, later, *for
which files* re-encoding is byte-exact.
-/

namespace Genie

/-! ## constants, `/repo/src/genieutils/common.py:8-23` -/

/-- `/repo/src/genieutils/common.py:8` -/
def TILE_TYPE_COUNT : Int := 19
/-- `/repo/src/genieutils/common.py:9` -/
def TERRAIN_COUNT : Int := 200
/-- `/repo/src/genieutils/common.py:10` -/
def TERRAIN_UNITS_SIZE : Int := 30

/-! `class UnitType(IntEnum)` — `/repo/src/genieutils/common.py:13-23` -/
namespace UnitType
def EyeCandy : Int := 10
def Trees : Int := 15
def Flag : Int := 20
def DeadFish : Int := 30
def Bird : Int := 40
def Combatant : Int := 50
def Projectile : Int := 60
def Creatable : Int := 70
def Building : Int := 80
def AoeTrees : Int := 90
end UnitType

/-! ## `/repo/src/genieutils/datatypes.py` -/

/-- `String.from_bytes` — `/repo/src/genieutils/datatypes.py:5-7`. -/
def String_from_bytes (content : Bytes) : Py PyStr := strDecode (rstripNul content)

/-- `String.to_bytes(content, length)` with an explicit `length` — `/repo/src/genieutils/datatypes.py:9-15`.
`if not length` treats `length = 0` as absent; `b'\0' * zfill` is empty for a negative `zfill`
(natural-number subtraction). -/
def String_to_bytes (content : PyStr) (length : Nat) : Py Bytes :=
  match strEncode content with
  | .error e => .error e
  | .ok encoded =>
    let length := if length = 0 then encoded.length + 1 else length
    .ok (encoded ++ List.replicate (length - encoded.length) 0)

/-- `Int.from_bytes` — `/repo/src/genieutils/datatypes.py:19-21`. -/
def Int_from_bytes (content : Bytes) (signed : Bool) : Int := intFromBytes content signed

/-- `Int.to_bytes` — `/repo/src/genieutils/datatypes.py:23-25`. -/
def Int_to_bytes (content : Int) (length : Nat) (signed : Bool) : Py Bytes :=
  intToBytes content length signed

/-- `Float.from_bytes` — `/repo/src/genieutils/datatypes.py:29-31`. -/
def Float_from_bytes (content : Bytes) : Py PyFloat := unpackNativeF content

/-- `Float.to_bytes` — `/repo/src/genieutils/datatypes.py:33-35`. -/
def Float_to_bytes (content : PyFloat) : Py Bytes := packNativeF content

/-! ## `GenieClass` writers, `/repo/src/genieutils/common.py:26-83` -/

/-- `write_int_8` — `/repo/src/genieutils/common.py:47-48`. -/
def writeInt8 (value : Int) : Py Bytes := Int_to_bytes value 1 false

/-- `write_int_16(value, signed)` — `/repo/src/genieutils/common.py:53-56` with `if_=True`. -/
def writeInt16 (value : Int) (signed : Bool := true) : Py Bytes := Int_to_bytes value 2 signed

/-- `write_int_16(value, if_=cond)` — `/repo/src/genieutils/common.py:53-56`. -/
def writeInt16If (value : Int) (if_ : Bool) : Py Bytes :=
  if !if_ then .ok [] else Int_to_bytes value 2 true

/-- `write_int_32(value, signed)` — `/repo/src/genieutils/common.py:61-62`. -/
def writeInt32 (value : Int) (signed : Bool := true) : Py Bytes := Int_to_bytes value 4 signed

/-- `write_float` — `/repo/src/genieutils/common.py:67-68`. -/
def writeFloat (value : PyFloat) : Py Bytes := Float_to_bytes value

/-- `write_int_8_array` — `/repo/src/genieutils/common.py:50-51`. -/
def writeInt8Array (value : List Int) : Py Bytes := joinB (value.map writeInt8)

/-- `write_int_16_array` — `/repo/src/genieutils/common.py:58-59`. -/
def writeInt16Array (value : List Int) : Py Bytes := joinB (value.map fun v => writeInt16 v)

/-- `write_int_32_array` — `/repo/src/genieutils/common.py:64-65`. -/
def writeInt32Array (value : List Int) : Py Bytes := joinB (value.map fun v => writeInt32 v)

/-- `write_float_array` — `/repo/src/genieutils/common.py:70-71`. -/
def writeFloatArray (value : List PyFloat) : Py Bytes := joinB (value.map writeFloat)

/-- `write_debug_string` — `/repo/src/genieutils/common.py:38-42`. -/
def writeDebugString (value : PyStr) : Py Bytes :=
  match strEncode value with
  | .error e => .error e
  | .ok encoded =>
    joinB [writeInt16 0x0A60 (signed := false),
           writeInt16 encoded.length (signed := false),
           .ok encoded]

/-- `write_string` — `/repo/src/genieutils/common.py:44-45`. -/
def writeString (length : Nat) (value : PyStr) : Py Bytes := String_to_bytes value length

/-- `write_class` — `/repo/src/genieutils/common.py:73-77` (`retval or b''` is `retval`). -/
def writeClass (toBytes : Version → α → Py Bytes) (value : α) (version : Version) : Py Bytes :=
  toBytes version value

/-- `write_class_array` on a list that may hold `None` — `/repo/src/genieutils/common.py:79-83`. -/
def writeClassArrayOpt (toBytes : Version → α → Py Bytes) (value : List (Option α))
    (version : Version) : Py Bytes :=
  joinB ((value.filterMap id).map fun v => writeClass toBytes v version)

/-- `write_class_array` on a list without `None` — `/repo/src/genieutils/common.py:79-83`. -/
def writeClassArray (toBytes : Version → α → Py Bytes) (value : List α)
    (version : Version) : Py Bytes :=
  joinB (value.map fun v => writeClass toBytes v version)

/-! ## `ByteHandler`, `/repo/src/genieutils/common.py:89-278` -/

/-- State of a `ByteHandler` — `/repo/src/genieutils/common.py:89-93`; `lossy` is ghost. -/
structure ByteHandler where
  content : Bytes
  offset : Nat
  version : Version
  /-- ghost, never read by the model -/
  lossy : Bool

/-- `ByteHandler(content)` — `/repo/src/genieutils/common.py:90-93`. -/
def ByteHandler.new (content : Bytes) : ByteHandler :=
  { content := content, offset := 0, version := .UNDEFINED, lossy := false }

/-- A method of / function on a `ByteHandler`: may raise, returns a value and the new state. -/
def Reader (α : Type) := ByteHandler → Py (α × ByteHandler)

instance : Monad Reader where
  pure a := fun h => .ok (a, h)
  bind r f := fun h =>
    match r h with
    | .error e => .error e
    | .ok (a, h') => f a h'

/-- Raise an exception. -/
def raise (e : PyErr) : Reader α := fun _ => .error e

/-- Run a computation that does not touch the handler. -/
def liftPy (x : Py α) : Reader α := fun h =>
  match x with
  | .error e => .error e
  | .ok a => .ok (a, h)

/-- ghost: record that the input is not exactly recoverable. -/
def noteLossy (b : Bool) : Reader Unit := fun h => .ok ((), { h with lossy := h.lossy || b })

/-- Read the `version` attribute of the handler. -/
def getVersion : Reader Version := fun h => .ok (h.version, h)

/-- `content.version = v` — `/repo/src/genieutils/datfile.py:60`. -/
def setVersion (v : Version) : Reader Unit := fun h => .ok ((), { h with version := v })

/-- `consume_range` — `/repo/src/genieutils/common.py:95-99`.  The slice is silently short when the
data runs out, and the offset moves on regardless. -/
def consumeRange (length : Nat) : Reader Bytes := fun h =>
  let start := h.offset
  let stop := start + length
  .ok (slice h.content start stop,
    { h with offset := stop, lossy := h.lossy || decide (0 < length ∧ h.content.length < stop) })

/-- `read_int_8` — `/repo/src/genieutils/common.py:110-111`. -/
def readInt8 : Reader Int := do
  let c ← consumeRange 1
  return Int_from_bytes c false

/-- `read_int_16` — `/repo/src/genieutils/common.py:161-162`. -/
def readInt16 (signed : Bool := true) : Reader Int := do
  let c ← consumeRange 2
  return Int_from_bytes c signed

/-- `read_int_32` — `/repo/src/genieutils/common.py:197-198`. -/
def readInt32 (signed : Bool := true) : Reader Int := do
  let c ← consumeRange 4
  return Int_from_bytes c signed

/-- `read_float` — `/repo/src/genieutils/common.py:220-221` (the second line is ghost). -/
def readFloat : Reader PyFloat := do
  let c ← consumeRange 4
  noteLossy (F.isSNaN32 (leNat c))
  liftPy (Float_from_bytes c)

/-- `read_debug_string` — `/repo/src/genieutils/common.py:101-105` (the `noteLossy` line is ghost). -/
def readDebugString : Reader PyStr := do
  let tmp_size ← readInt16 (signed := false)
  if tmp_size ≠ 0x0A60 then raise .assertionError
  else do
    let size ← readInt16 (signed := false)
    let c ← consumeRange size.toNat
    noteLossy (decide (rstripNul c ≠ c))
    liftPy (String_from_bytes c)

/-- `read_string` — `/repo/src/genieutils/common.py:107-108`. -/
def readString (length : Nat) : Reader PyStr := do
  let c ← consumeRange length
  liftPy (String_from_bytes c)

/-- `for i in range(n): elements.append(r())` for a natural number of iterations. -/
def repeatR (r : Reader α) : Nat → Reader (List α)
  | 0 => pure []
  | n + 1 => do
    let element ← r
    let elements ← repeatR r n
    return element :: elements

/-- The loop `for i in range(size): elements.append(r())`; a negative `size` iterates zero times.
Ghost: a negative count is lossy unless the count is itself kept by the caller (`countStored`). -/
def readArray (r : Reader α) (size : Int) (countStored : Bool := false) : Reader (List α) := do
  noteLossy (!countStored && decide (size < 0))
  repeatR r size.toNat

/-- `read_int_8_array` — `/repo/src/genieutils/common.py:113-117`. -/
def readInt8Array (size : Int) : Reader (List Int) := readArray readInt8 size

/-- `read_int_16_array` — `/repo/src/genieutils/common.py:164-168`. -/
def readInt16Array (size : Int) : Reader (List Int) := readArray readInt16 size

/-- `read_int_32_array` — `/repo/src/genieutils/common.py:200-204`. -/
def readInt32Array (size : Int) : Reader (List Int) := readArray readInt32 size

/-- `read_float_array` — `/repo/src/genieutils/common.py:223-227`. -/
def readFloatArray (size : Int) : Reader (List PyFloat) := readArray readFloat size

/-- `read_int_8_array_2` — `/repo/src/genieutils/common.py:119-122`. (Tuples are lists here.) -/
def readInt8Array2 : Reader (List Int) := do
  let element_0 ← readInt8
  let element_1 ← readInt8
  return [element_0, element_1]

/-- `read_int_8_array_3` — `/repo/src/genieutils/common.py:124-128`. -/
def readInt8Array3 : Reader (List Int) := do
  let element_0 ← readInt8
  let element_1 ← readInt8
  let element_2 ← readInt8
  return [element_0, element_1, element_2]

/-- `read_int_8_array_5` — `/repo/src/genieutils/common.py:130-136`. -/
def readInt8Array5 : Reader (List Int) := do
  let element_0 ← readInt8
  let element_1 ← readInt8
  let element_2 ← readInt8
  let element_3 ← readInt8
  let element_4 ← readInt8
  return [element_0, element_1, element_2, element_3, element_4]

/-- `read_int_8_array_6` — `/repo/src/genieutils/common.py:138-145`. -/
def readInt8Array6 : Reader (List Int) := do
  let element_0 ← readInt8
  let element_1 ← readInt8
  let element_2 ← readInt8
  let element_3 ← readInt8
  let element_4 ← readInt8
  let element_5 ← readInt8
  return [element_0, element_1, element_2, element_3, element_4, element_5]

/-- `read_int_8_array_10` — `/repo/src/genieutils/common.py:147-159`. -/
def readInt8Array10 : Reader (List Int) := do
  let element_0 ← readInt8
  let element_1 ← readInt8
  let element_2 ← readInt8
  let element_3 ← readInt8
  let element_4 ← readInt8
  let element_5 ← readInt8
  let element_6 ← readInt8
  let element_7 ← readInt8
  let element_8 ← readInt8
  let element_9 ← readInt8
  return [element_0, element_1, element_2, element_3, element_4, element_5, element_6, element_7,
    element_8, element_9]

/-- `read_int_16_array_2` — `/repo/src/genieutils/common.py:170-173`. -/
def readInt16Array2 : Reader (List Int) := do
  let element_0 ← readInt16
  let element_1 ← readInt16
  return [element_0, element_1]

/-- `read_int_16_array_3` — `/repo/src/genieutils/common.py:175-179`. -/
def readInt16Array3 : Reader (List Int) := do
  let element_0 ← readInt16
  let element_1 ← readInt16
  let element_2 ← readInt16
  return [element_0, element_1, element_2]

/-- `read_int_16_array_4` — `/repo/src/genieutils/common.py:181-186`. -/
def readInt16Array4 : Reader (List Int) := do
  let element_0 ← readInt16
  let element_1 ← readInt16
  let element_2 ← readInt16
  let element_3 ← readInt16
  return [element_0, element_1, element_2, element_3]

/-- `read_int_16_array_6` — `/repo/src/genieutils/common.py:188-195`. -/
def readInt16Array6 : Reader (List Int) := do
  let element_0 ← readInt16
  let element_1 ← readInt16
  let element_2 ← readInt16
  let element_3 ← readInt16
  let element_4 ← readInt16
  let element_5 ← readInt16
  return [element_0, element_1, element_2, element_3, element_4, element_5]

/-- `read_int_32_array_10` — `/repo/src/genieutils/common.py:206-218`. -/
def readInt32Array10 : Reader (List Int) := do
  let element_0 ← readInt32
  let element_1 ← readInt32
  let element_2 ← readInt32
  let element_3 ← readInt32
  let element_4 ← readInt32
  let element_5 ← readInt32
  let element_6 ← readInt32
  let element_7 ← readInt32
  let element_8 ← readInt32
  let element_9 ← readInt32
  return [element_0, element_1, element_2, element_3, element_4, element_5, element_6, element_7,
    element_8, element_9]

/-- `read_float_array_2` — `/repo/src/genieutils/common.py:229-232`. -/
def readFloatArray2 : Reader (List PyFloat) := do
  let element_0 ← readFloat
  let element_1 ← readFloat
  return [element_0, element_1]

/-- `read_float_array_3` — `/repo/src/genieutils/common.py:234-238`. -/
def readFloatArray3 : Reader (List PyFloat) := do
  let element_0 ← readFloat
  let element_1 ← readFloat
  let element_2 ← readFloat
  return [element_0, element_1, element_2]

/-- `read_class` — `/repo/src/genieutils/common.py:240-242`; the class is given by its `from_bytes`. -/
def readClass (fromBytes : Reader α) : Reader α := fromBytes

/-- `read_class_array` — `/repo/src/genieutils/common.py:244-249`. -/
def readClassArray (fromBytes : Reader α) (size : Int) (countStored : Bool := false) :
    Reader (List α) := readArray fromBytes size countStored

/-- `read_class_array_3` — `/repo/src/genieutils/common.py:251-255`. -/
def readClassArray3 (fromBytes : Reader α) : Reader (List α) := do
  let element_0 ← fromBytes
  let element_1 ← fromBytes
  let element_2 ← fromBytes
  return [element_0, element_1, element_2]

/-- `read_class_array_4` — `/repo/src/genieutils/common.py:257-262`. -/
def readClassArray4 (fromBytes : Reader α) : Reader (List α) := do
  let element_0 ← fromBytes
  let element_1 ← fromBytes
  let element_2 ← fromBytes
  let element_3 ← fromBytes
  return [element_0, element_1, element_2, element_3]

/-- `x = content.read_…() if cond else None` (also `x = None` followed by `if cond: x = …`). -/
def readIf (cond : Prop) [Decidable cond] (r : Reader α) : Reader (Option α) :=
  if cond then (do let a ← r; return some a) else pure none

/-- `x = default` followed by `if cond: x = content.read_…()`
(e.g. `/repo/src/genieutils/unit.py:150-152`). -/
def readOr (cond : Prop) [Decidable cond] (r : Reader α) (default_ : α) : Reader α :=
  if cond then r else pure default_

/-- Loop body of `read_class_array_with_pointers` for the indices `i, …, i + n - 1`. -/
def readPointersFrom (fromBytes : Reader α) (pointers : List Int) :
    Nat → Nat → Reader (List (Option α))
  | _, 0 => pure []
  | i, n + 1 =>
    match pointers[i]? with
    | none => raise .indexError
    | some p => do
      noteLossy (decide (p ≠ 0 ∧ p ≠ 1))
      let element ← readIf (p ≠ 0) fromBytes
      let elements ← readPointersFrom fromBytes pointers (i + 1) n
      return element :: elements

/-- `read_class_array_with_pointers` — `/repo/src/genieutils/common.py:264-271` (ghost: a pointer
other than 0 and 1 is lossy). -/
def readClassArrayWithPointers (fromBytes : Reader α) (size : Int) (pointers : List Int) :
    Reader (List (Option α)) := readPointersFrom fromBytes pointers 0 size.toNat

/-- `read_class_array_with_param` — `/repo/src/genieutils/common.py:273-278`. -/
def readClassArrayWithParam (fromBytesWithCount : Int → Reader α) (size : Int)
    (terrains_used_1 : Int) : Reader (List α) :=
  readArray (fromBytesWithCount terrains_used_1) size

/-! ## `struct.unpack(FORMAT, content.consume_range(LENGTH))` and tuple destructuring -/

/-- `struct.unpack(fmt, content.consume_range(length))`, the idiom of `task.py` and `unit.py`
(e.g. `/repo/src/genieutils/task.py:87-90`); the `noteLossy` line is ghost. -/
def unpackFrom (fmt : String) (length : Nat) : Reader (List Val) := do
  let c ← consumeRange length
  noteLossy (codesHaveSNaN ((parseFmt fmt).getD []) c)
  liftPy (structUnpack fmt c)

/-- Bind the next target of a tuple-unpacking assignment to an `int`. -/
def popInt (vs : List Val) (k : Int → List Val → Reader β) : Reader β :=
  match vs with
  | .int i :: vs => k i vs
  | .float _ :: _ => raise .typeError
  | [] => raise .valueError

/-- Bind the next target of a tuple-unpacking assignment to a `float`. -/
def popFloat (vs : List Val) (k : PyFloat → List Val → Reader β) : Reader β :=
  match vs with
  | .float x :: vs => k x vs
  | .int _ :: _ => raise .typeError
  | [] => raise .valueError

/-- End of a tuple-unpacking assignment: left-over values raise `ValueError`. -/
def popDone (vs : List Val) (k : Reader β) : Reader β :=
  match vs with
  | [] => k
  | _ :: _ => raise .valueError

/-- `self.write_…(self.x) if cond and self.x is not None else b''`. -/
def writeIf (cond : Prop) [Decidable cond] (w : α → Py Bytes) (x : Option α) : Py Bytes :=
  if cond then
    match x with
    | some a => w a
    | none => .ok []
  else .ok []

end Genie
