import Verif.Py.Float
import Verif.Py.Utf8
/-!
# Python `json.dumps(tree, indent=2)`

Trees as `dataclasses.asdict` builds them, and the text the standard library's `json` encoder makes of them (`indent=2`, every other
option at its default: `ensure_ascii=True`, `allow_nan=True`, separators `','` and `': '`).  Texts are lists of code points.

The shortest-digits algorithm behind `float.__repr__` is not modelled: it is a parameter, of which `FloatRepr.Lawful` is assumed.
-/

namespace Genie

/-- The values `dataclasses.asdict` returns (lists and tuples are not distinguished, the encoder treats them alike; the order of the
keys of a `dict` is its insertion order). -/
inductive PyTree where
  | none
  | int (i : Int)
  | float (x : PyFloat)
  | str (s : PyStr)
  | list (l : List PyTree)
  | dict (kvs : List (PyStr × PyTree))
deriving Inhabited

namespace F

/-- The pattern is a NaN. -/
def isNaN (x : PyFloat) : Bool := exp64 x.bits.toNat == 2047 && man64 x.bits.toNat != 0
/-- The pattern is an infinity. -/
def isInf (x : PyFloat) : Bool := exp64 x.bits.toNat == 2047 && man64 x.bits.toNat == 0
/-- The pattern is a finite number. -/
def isFinite (x : PyFloat) : Bool := exp64 x.bits.toNat != 2047

end F

namespace Json

/-- `float.__repr__`. -/
abbrev FloatRepr := PyFloat → PyStr

/-- Decimal digits. -/
def isDigit (c : Nat) : Bool := decide (48 ≤ c) && decide (c ≤ 57)

/-- What is assumed of `float.__repr__` on finite numbers (the documented behaviour: `float(repr(x)) == x`, with a decimal point or an
exponent): different numbers (the two zeros are different) have different representations, which start with a digit or `-`, consist of
digits, `+`, `-`, `.` and `e`, and are not integer literals (some character is `.` or `e`). -/
structure FloatRepr.Lawful (repr : FloatRepr) : Prop where
  injective : ∀ x y, F.isFinite x → F.isFinite y → repr x = repr y → x = y
  chars : ∀ x, F.isFinite x → ∀ c ∈ repr x, isDigit c ∨ c = 43 ∨ c = 45 ∨ c = 46 ∨ c = 101
  start : ∀ x, F.isFinite x → ∃ c cs, repr x = c :: cs ∧ (isDigit c ∨ c = 45)
  mark : ∀ x, F.isFinite x → ∃ c ∈ repr x, c = 46 ∨ c = 101

/-- Decimal digits of a natural number, most significant first. -/
def natRepr (n : Nat) : PyStr :=
  if n < 10 then [48 + n] else natRepr (n / 10) ++ [48 + n % 10]
termination_by n
decreasing_by omega

/-- `int.__repr__`. -/
def intRepr (i : Int) : PyStr := if i < 0 then 45 :: natRepr i.natAbs else natRepr i.natAbs

/-- `json.encoder` `floatstr`: `NaN`, `Infinity`, `-Infinity`, else `float.__repr__`. -/
def floatStr (repr : FloatRepr) (x : PyFloat) : PyStr :=
  if F.isNaN x then lit "NaN"
  else if F.isInf x then (if F.sign64 x.bits.toNat = 0 then lit "Infinity" else lit "-Infinity")
  else repr x

/-- One hexadecimal digit (`'{0:04x}'`: lower case). -/
def hexDigit (n : Nat) : Nat := if n < 10 then 48 + n else 87 + n

/-- `'\\u{0:04x}'.format(n)` for `n < 0x10000`. -/
def uEscape (n : Nat) : PyStr :=
  [92, 117, hexDigit (n / 4096 % 16), hexDigit (n / 256 % 16), hexDigit (n / 16 % 16), hexDigit (n % 16)]

/-- `json.encoder.ESCAPE_ASCII` / `ESCAPE_DCT`: the text of one character inside a string literal. -/
def escapeChar (c : Nat) : PyStr :=
  if c = 34 then [92, 34]              -- \"
  else if c = 92 then [92, 92]         -- \\
  else if c = 10 then [92, 110]        -- \n
  else if c = 13 then [92, 114]        -- \r
  else if c = 9 then [92, 116]         -- \t
  else if c = 12 then [92, 102]        -- \f
  else if c = 8 then [92, 98]          -- \b
  else if 32 ≤ c ∧ c ≤ 126 then [c]
  else if c < 0x10000 then uEscape c
  else uEscape (0xD800 + (c - 0x10000) / 1024 % 1024) ++ uEscape (0xDC00 + (c - 0x10000) % 1024)

/-- `json.encoder.py_encode_basestring_ascii`. -/
def encodeStr (s : PyStr) : PyStr := 34 :: (s.flatMap escapeChar ++ [34])

/-- `'\n' + '  ' * level`. -/
def newlineIndent (level : Nat) : PyStr := 10 :: List.replicate (2 * level) 32

mutual
/-- `_iterencode(o, level)`, joined. -/
def encode (repr : FloatRepr) (level : Nat) : PyTree → PyStr
  | .none => lit "null"
  | .int i => intRepr i
  | .float x => floatStr repr x
  | .str s => encodeStr s
  | .list [] => lit "[]"
  | .list (x :: xs) =>
    lit "[" ++ (newlineIndent (level + 1) ++ (encode repr (level + 1) x ++ (encodeElems repr level xs)))
  | .dict [] => lit "{}"
  | .dict ((k, x) :: kvs) =>
    lit "{" ++ (newlineIndent (level + 1) ++ (encodeStr k ++ (lit ": " ++ (encode repr (level + 1) x ++ encodeItems repr level kvs))))
/-- The remaining elements of a list and its end. -/
def encodeElems (repr : FloatRepr) (level : Nat) : List PyTree → PyStr
  | [] => newlineIndent level ++ lit "]"
  | x :: xs => lit "," ++ (newlineIndent (level + 1) ++ (encode repr (level + 1) x ++ encodeElems repr level xs))
/-- The remaining items of a dict and its end. -/
def encodeItems (repr : FloatRepr) (level : Nat) : List (PyStr × PyTree) → PyStr
  | [] => newlineIndent level ++ lit "}"
  | (k, x) :: kvs =>
    lit "," ++ (newlineIndent (level + 1) ++ (encodeStr k ++ (lit ": " ++ (encode repr (level + 1) x ++ encodeItems repr level kvs))))
end

/-- `json.dumps(tree, indent=2)`.  (`sys.set_int_max_str_digits` limits `int.__repr__` to 4300 digits; not modelled.) -/
def dumps (repr : FloatRepr) (tree : PyTree) : PyStr := encode repr 0 tree

end Json
end Genie
