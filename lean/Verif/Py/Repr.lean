import Verif.Py.Json
/-!
# Python `repr` of numbers and strings

The built-in `repr` of `None`, `int`, `float` and `str`.  Texts are lists of code points.  The shortest-digits algorithm of `float.__repr__` is a
parameter (`Json.FloatRepr`), and so is the table of the Unicode characters above 127 that count as printable (`str.isprintable`).
-/

namespace Genie
namespace PyRepr

/-- `repr(x)` of a `float`: `nan`, `inf`, `-inf`, else the shortest digits. -/
def floatRepr (digits : Json.FloatRepr) (x : PyFloat) : PyStr :=
  if F.isNaN x then lit "nan"
  else if F.isInf x then (if F.sign64 x.bits.toNat = 0 then lit "inf" else lit "-inf")
  else digits x

/-- `k` hexadecimal digits, lower case. -/
def hexN : Nat → Nat → PyStr
  | 0, _ => []
  | k + 1, n => hexN k (n / 16) ++ [Json.hexDigit (n % 16)]

/-- One character of a string literal with the quotes `q` (CPython, `unicode_repr`). -/
def escape (printable : Nat → Bool) (q c : Nat) : PyStr :=
  if c = q ∨ c = 92 then [92, c]
  else if c = 9 then [92, 116]
  else if c = 10 then [92, 110]
  else if c = 13 then [92, 114]
  else if c < 32 ∨ c = 127 then 92 :: 120 :: hexN 2 c
  else if c < 127 then [c]
  else if printable c then [c]
  else if c < 0x100 then 92 :: 120 :: hexN 2 c
  else if c < 0x10000 then 92 :: 117 :: hexN 4 c
  else 92 :: 85 :: hexN 8 c

/-- The quotes: `'`, unless the string contains `'` and no `"`. -/
def quote (s : PyStr) : Nat := if 39 ∈ s ∧ 34 ∉ s then 34 else 39

/-- `repr(s)` of a `str`. -/
def strRepr (printable : Nat → Bool) (s : PyStr) : PyStr := quote s :: (s.flatMap (escape printable (quote s)) ++ [quote s])

end PyRepr
end Genie
