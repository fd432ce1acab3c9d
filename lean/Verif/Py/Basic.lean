/-!
# Python built-ins used by genieutils-py: exceptions, bytes, `int.from_bytes` / `int.to_bytes`

These are models of the *Python runtime* functions the repository calls (part of the trusted
base, see DESIGN.md); the repository's own functions are modelled under `Verif/Model`.
-/

namespace Genie

/-- A Python `bytes` / `memoryview` value. -/
abbrev Bytes := List UInt8

/-- The Python exceptions the modelled code can raise (`/repo/src/genieutils/*.py` raises them
only indirectly, through `int.to_bytes`, `struct`, `assert`, `str.encode/decode`, `Version(...)`,
list indexing, `zlib` and the file system).  `typeError` also stands for the dynamic type
confusions that the typed model cannot represent (an `int` where the annotation says `float`). -/
inductive PyErr where
  | overflowError        -- int.to_bytes out of range; struct '<f' with a too large float
  | structError          -- struct.error
  | assertionError       -- assert
  | unicodeDecodeError   -- bytes.decode()
  | unicodeEncodeError   -- str.encode()
  | valueError           -- Version('...') not a member; tuple unpacking arity mismatch
  | indexError           -- list index out of range
  | typeError
  | notImplementedError
  | zlibError            -- zlib.error
  | osError              -- OSError (open / read / write of a file)
  | attributeError       -- an attribute that is not there (user programs, `Verif/Model/Readme.lean`, `Verif/Model/HeapWrite.lean`)
  | recursionError       -- RecursionError (`Verif/Model/HeapWrite.lean`)
deriving DecidableEq, Repr

/-- Result of a Python call: a value, or an exception. -/
abbrev Py (α : Type) := Except PyErr α

/-- Unsigned little-endian value of a byte string. -/
def leNat : Bytes → Nat
  | [] => 0
  | b :: bs => b.toNat + 256 * leNat bs

/-- `n` little-endian bytes of `x` (low `8*n` bits). -/
def natLE : Nat → Nat → Bytes
  | 0, _ => []
  | n + 1, x => UInt8.ofNat (x % 256) :: natLE n (x / 256)

/-- Python `int.from_bytes(content, byteorder='little', signed=signed)`.
Any length is accepted, including the empty string (value 0). -/
def intFromBytes (content : Bytes) (signed : Bool) : Int :=
  if signed = true ∧ 256 ^ content.length ≤ 2 * leNat content then
    (leNat content : Int) - (256 : Int) ^ content.length
  else leNat content

/-- Python `content.to_bytes(length, 'little', signed=signed)`: `OverflowError` when the value
does not fit. -/
def intToBytes (content : Int) (length : Nat) (signed : Bool) : Py Bytes :=
  if signed then
    if -(256 : Int) ^ length ≤ 2 * content ∧ 2 * content < (256 : Int) ^ length then
      .ok (natLE length (content % (256 : Int) ^ length).toNat)
    else .error .overflowError
  else
    if 0 ≤ content ∧ content < (256 : Int) ^ length then
      .ok (natLE length content.toNat)
    else .error .overflowError

/-- Python `b''.join([e₁, e₂, …])` where the elements are expressions evaluated left to right:
the first exception wins, otherwise the concatenation.  Also used for `e₁ + e₂ + …`. -/
def joinB : List (Py Bytes) → Py Bytes
  | [] => .ok []
  | w :: ws =>
    match w with
    | .error e => .error e
    | .ok b =>
      match joinB ws with
      | .error e => .error e
      | .ok bs => .ok (b ++ bs)

/-- Python slice `content[start:end]` for `0 ≤ start ≤ end` (out-of-range bounds are clipped). -/
def slice (content : Bytes) (start stop : Nat) : Bytes :=
  (content.take stop).drop start

end Genie
