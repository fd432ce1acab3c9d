import Verif.Model.Common
import Verif.Spec.Samples
/-!
# The tests of the project, run on the model

Every assertion of `/repo/tests/test_common.py` that is about modelled code (the abstract methods of the base class, which raise
`NotImplementedError`, are not modelled), evaluated by the kernel.  These are tests of the model, not proofs; `/repo/tests/test_lengths.py` is
`C16_lengths`, and `/repo/tests/test_dat_compatibility.py` is C15.
-/

namespace Genie
namespace RepoTests

/-- `ByteHandler(memoryview(b''.join([int.to_bytes(i) + b'\x00' * k for i in range(32)])))` — `/repo/tests/test_common.py:78-91`. -/
def handler (k : Nat) : ByteHandler := ByteHandler.new ((List.range 32).flatMap fun i => UInt8.ofNat i :: List.replicate k 0)

/-- `/repo/tests/test_common.py:93-96`. -/
def handlerFloat : ByteHandler := ByteHandler.new (List.replicate 32 [0x00, 0x00, 0x00, 0x00, 0x00, 0x00, 0x80, 0x3f, 0x00, 0x00, 0x00, 0x40]).flatten

/-- `/repo/tests/test_common.py:98-101`. -/
def handlerClass : ByteHandler :=
  ByteHandler.new (List.replicate 32 [0x80, 0x01, 0x00, 0x00, 0x08, 0x00, 0x00, 0x46, 0x4f, 0x4f, 0x42, 0x41, 0x52, 0x00, 0x00, 0x80, 0x3f]).flatten

/-- `ChildGenieClass` — `/repo/tests/test_common.py:104-110`. -/
structure Child where
  /-- `int_8_val` -/
  int8 : Int
  /-- `int_16_val` -/
  int16 : Int
  /-- `int_32_val` -/
  int32 : Int
  /-- `str_val` -/
  str : PyStr
  /-- `float_val` -/
  float : PyFloat
  deriving DecidableEq

/-- `ChildGenieClass.from_bytes` — `/repo/tests/test_common.py:112-120`. -/
def child : Reader Child := do
  let a ← readInt8
  let b ← readInt16
  let c ← readInt32
  let d ← readString 6
  let e ← readFloat
  pure ⟨a, b, c, d, e⟩

/-- The returned value, if one is returned. -/
def got (r : Reader α) (h : ByteHandler) : Option α :=
  match r h with
  | .ok (a, _) => some a
  | .error _ => none

/-- The written bytes, if there are any. -/
def wrote (x : Py Bytes) : Option Bytes :=
  match x with
  | .ok b => some b
  | .error _ => none

/-- The exception. -/
def raised (x : Py α) : Option PyErr :=
  match x with
  | .ok _ => none
  | .error e => some e

/-- `1.0` and `2.0` and `10.0`. -/
def one : PyFloat := ⟨0x3FF0000000000000⟩
@[inherit_doc one] def two : PyFloat := ⟨0x4000000000000000⟩
@[inherit_doc one] def ten : PyFloat := ⟨0x4024000000000000⟩

/-- `TestGenieClass` — `/repo/tests/test_common.py:25-67`. -/
example :
    wrote (writeDebugString (lit "foobar")) = some [0x60, 0x0A, 0x06, 0x00, 102, 111, 111, 98, 97, 114] ∧
    wrote (writeString 6 (lit "foobar")) = some [102, 111, 111, 98, 97, 114] ∧
    wrote (writeInt8 10) = some [0x0A] ∧ raised (writeInt8 1000) = some .overflowError ∧
    wrote (writeInt8Array [10, 10, 10]) = some [0x0A, 0x0A, 0x0A] ∧ raised (writeInt8Array [10, 10, 1000]) = some .overflowError ∧
    wrote (writeInt16 10) = some [0x0A, 0] ∧ raised (writeInt16 70000) = some .overflowError ∧
    wrote (writeInt16Array [10, 10, 10]) = some [0x0A, 0, 0x0A, 0, 0x0A, 0] ∧ raised (writeInt16Array [10, 10, 70000]) = some .overflowError ∧
    wrote (writeInt32 10) = some [0x0A, 0, 0, 0] ∧ raised (writeInt32 5000000000) = some .overflowError ∧
    wrote (writeInt32Array [10, 10, 10]) = some [0x0A, 0, 0, 0, 0x0A, 0, 0, 0, 0x0A, 0, 0, 0] ∧
    raised (writeInt32Array [10, 10, 5000000000]) = some .overflowError ∧
    wrote (writeFloat ten) = some [0, 0, 0x20, 0x41] ∧
    wrote (writeFloatArray [ten, ten, ten]) = some [0, 0, 0x20, 0x41, 0, 0, 0x20, 0x41, 0, 0, 0x20, 0x41] := by
  set_option exponentiation.threshold 2000 in decide +kernel

/-- `TestByteHandler`, integers and strings — `/repo/tests/test_common.py:124-178`. -/
example :
    got (consumeRange 10) (handler 0) = some [0, 1, 2, 3, 4, 5, 6, 7, 8, 9] ∧
    got (readString 10) (handler 0) = some [0, 1, 2, 3, 4, 5, 6, 7, 8, 9] ∧
    got readInt8 (handler 0) = some 0 ∧
    got (readInt8Array 3) (handler 0) = some [0, 1, 2] ∧
    got readInt8Array2 (handler 0) = some [0, 1] ∧
    got readInt8Array3 (handler 0) = some [0, 1, 2] ∧
    got readInt8Array5 (handler 0) = some [0, 1, 2, 3, 4] ∧
    got readInt8Array6 (handler 0) = some [0, 1, 2, 3, 4, 5] ∧
    got readInt8Array10 (handler 0) = some [0, 1, 2, 3, 4, 5, 6, 7, 8, 9] ∧
    got (do let a ← readInt16; let b ← readInt16 false; pure (a, b)) (handler 1) = some (0, 1) ∧
    got (readInt16Array 3) (handler 1) = some [0, 1, 2] ∧
    got readInt16Array2 (handler 1) = some [0, 1] ∧
    got readInt16Array3 (handler 1) = some [0, 1, 2] ∧
    got readInt16Array4 (handler 1) = some [0, 1, 2, 3] ∧
    got readInt16Array6 (handler 1) = some [0, 1, 2, 3, 4, 5] ∧
    got (do let a ← readInt32; let b ← readInt32 false; pure (a, b)) (handler 3) = some (0, 1) ∧
    got (readInt32Array 3) (handler 3) = some [0, 1, 2] ∧
    got readInt32Array10 (handler 3) = some [0, 1, 2, 3, 4, 5, 6, 7, 8, 9] := by
  decide +kernel

/-- `TestByteHandler`, floats — `/repo/tests/test_common.py:180-190`. -/
example :
    got readFloat handlerFloat = some ⟨0⟩ ∧
    got (readFloatArray 3) handlerFloat = some [⟨0⟩, one, two] ∧
    got readFloatArray2 handlerFloat = some [⟨0⟩, one] ∧
    got readFloatArray3 handlerFloat = some [⟨0⟩, one, two] := by
  set_option exponentiation.threshold 2000 in decide +kernel

/-- `TestByteHandler`, classes — `/repo/tests/test_common.py:192-235`. -/
example :
    got (readClass child) handlerClass = some (Child.mk 128 1 2048 (lit "FOOBAR") one) ∧
    got (readClassArray child 3) handlerClass = some (List.replicate 3 (Child.mk 128 1 2048 (lit "FOOBAR") one)) ∧
    got (readClassArray3 child) handlerClass = some (List.replicate 3 (Child.mk 128 1 2048 (lit "FOOBAR") one)) ∧
    got (readClassArray4 child) handlerClass = some (List.replicate 4 (Child.mk 128 1 2048 (lit "FOOBAR") one)) := by
  set_option exponentiation.threshold 2000 in decide +kernel

end RepoTests
end Genie
