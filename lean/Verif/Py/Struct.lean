import Verif.Py.Float
/-!
# Python `struct`

Only what the repository uses: little-endian standard formats `'<…'` over the codes
`b`, `h`, `l`, `f`, and the native single-element format `'f'` (same bytes on a little-endian host,
but no overflow check when packing, see `Verif/Py/Float.lean`).
-/

namespace Genie

/-- The format characters in use: signed 1/2/4-byte integers and binary32. -/
inductive Code where
  | b | h | l | f
deriving DecidableEq, Repr

/-- Size in bytes of a format character in standard (`<`) mode. -/
def Code.size : Code → Nat
  | .b => 1 | .h => 2 | .l => 4 | .f => 4

def Code.ofChar : Char → Option Code
  | 'b' => some .b | 'h' => some .h | 'l' => some .l | 'f' => some .f | _ => none

def codesOfChars : List Char → Option (List Code)
  | [] => some []
  | c :: cs =>
    match Code.ofChar c, codesOfChars cs with
    | some k, some ks => some (k :: ks)
    | _, _ => none

/-- Parse a format string `'<…'` (anything else is a `struct.error`, here `none`). -/
def parseFmt (fmt : String) : Option (List Code) :=
  match fmt.toList with
  | '<' :: cs => codesOfChars cs
  | _ => none

/-- A Python value that goes in or out of `struct`. -/
inductive Val where
  | int (i : Int)
  | float (x : PyFloat)
deriving DecidableEq, Repr

/-- Total size of a list of codes. -/
def codesSize : List Code → Nat
  | [] => 0
  | c :: cs => c.size + codesSize cs

/-- Python `struct.calcsize(fmt)`. -/
def calcsize (fmt : String) : Py Nat :=
  match parseFmt fmt with
  | some cs => .ok (codesSize cs)
  | none => .error .structError

/-- `struct.calcsize(fmt)` evaluated when a module is imported (the formats are literals, so the
`struct.error` branch would make the import fail; it does not occur, see `Verif/Proof/Struct.lean`). -/
def moduleCalcsize (fmt : String) : Nat := codesSize ((parseFmt fmt).getD [])

def unpackCode (c : Code) (bs : Bytes) : Val :=
  match c with
  | .f => .float (floatOfBytes bs)
  | _ => .int (intFromBytes bs true)

def unpackCodes : List Code → Bytes → List Val
  | [], _ => []
  | c :: cs, bs => unpackCode c (bs.take c.size) :: unpackCodes cs (bs.drop c.size)

/-- Python `struct.unpack(fmt, content)`: `struct.error` unless the length is exactly right. -/
def structUnpack (fmt : String) (content : Bytes) : Py (List Val) :=
  match parseFmt fmt with
  | none => .error .structError
  | some cs =>
    if content.length = codesSize cs then .ok (unpackCodes cs content)
    else .error .structError

/-- One element of `struct.pack('<…', …)`.  Integers out of range and floats given for an integer
code raise `struct.error`; a finite float that overflows single precision raises `OverflowError`.
An `int` given for `f` is converted to a `float` first (`PyFloat_AsDouble`; an `int` too large for that
raises `struct.error`).  In the repository this happens when the lengths of two adjacent tuples of a `Unit` are
wrong in opposite directions, see C31. -/
def packCode (c : Code) (v : Val) : Py Bytes :=
  match c, v with
  | .f, .float x =>
    if F.narrowOverflows x.bits.toNat then .error .overflowError else .ok (bytesOfFloat x)
  | .f, .int i =>
    match F.ofInt i with
    | none => .error .structError
    | some d =>
      if F.narrowOverflows d then .error .overflowError else .ok (bytesOfFloat ⟨BitVec.ofNat 64 d⟩)
  | _, .float _ => .error .structError
  | c, .int i =>
    match intToBytes i c.size true with
    | .ok bs => .ok bs
    | .error _ => .error .structError

def packCodes : List Code → List Val → Py Bytes
  | c :: cs, v :: vs =>
    match packCode c v with
    | .error e => .error e
    | .ok b =>
      match packCodes cs vs with
      | .error e => .error e
      | .ok bs => .ok (b ++ bs)
  | _, _ => .ok []

/-- Python `struct.pack(fmt, *args)`: the number of arguments is checked first, then the
arguments are packed left to right. -/
def structPack (fmt : String) (args : List Val) : Py Bytes :=
  match parseFmt fmt with
  | none => .error .structError
  | some cs =>
    if cs.length = args.length then packCodes cs args else .error .structError

/-- Ghost: some `f` element of the packed bytes is a signalling NaN (its bits will not survive). -/
def codesHaveSNaN : List Code → Bytes → Bool
  | [], _ => false
  | c :: cs, bs =>
    (c == .f && F.isSNaN32 (leNat (bs.take c.size))) || codesHaveSNaN cs (bs.drop c.size)

/-- Python `struct.unpack('f', content)[0]` (native format). -/
def unpackNativeF (content : Bytes) : Py PyFloat :=
  if content.length = 4 then .ok (floatOfBytes content) else .error .structError

/-- Python `struct.pack('f', x)` (native format): never overflows. -/
def packNativeF (x : PyFloat) : Py Bytes := .ok (bytesOfFloat x)

end Genie
