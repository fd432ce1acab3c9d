import Verif.Spec.Json
/-!
# The JSON grammar of RFC 8259, with the meaning of the texts

Texts are lists of code points.  The relation `Value floatOf text t` says that `text` is a JSON value (in the sense of RFC 8259,
sections 2 to 7) and denotes `t`.  The RFC leaves the precision of numbers to the reader; here a number without fraction and exponent
denotes an integer and the others what `floatOf` (a reader such as Python's `float`) makes of them.
-/

namespace Genie.Rfc8259

/-- JSON values.  Strings are sequences of UTF-16 code units, which is what `\uXXXX` escapes denote. -/
inductive Tree where
  | null
  | bool (b : Bool)
  | int (i : Int)
  | float (x : PyFloat)
  | str (units : List Nat)
  | arr (l : List Tree)
  | obj (members : List (List Nat × Tree))

/-- `ws = *( %x20 / %x09 / %x0A / %x0D )` -/
def Ws (s : PyStr) : Prop := ∀ c ∈ s, c = 0x20 ∨ c = 0x09 ∨ c = 0x0A ∨ c = 0x0D

/-- `DIGIT` -/
def Digit (c : Nat) : Prop := 0x30 ≤ c ∧ c ≤ 0x39
/-- `1*DIGIT` -/
def Digits (s : PyStr) : Prop := s ≠ [] ∧ ∀ c ∈ s, Digit c
/-- `int = zero / ( digit1-9 *DIGIT )` -/
def IntPart (s : PyStr) : Prop := s = [0x30] ∨ ∃ c cs, s = c :: cs ∧ 0x31 ≤ c ∧ c ≤ 0x39 ∧ ∀ d ∈ cs, Digit d
/-- `frac = decimal-point 1*DIGIT` -/
def Frac (s : PyStr) : Prop := ∃ ds, s = 0x2E :: ds ∧ Digits ds
/-- `exp = e [ minus / plus ] 1*DIGIT` -/
def Exp (s : PyStr) : Prop := ∃ e sign ds, s = e :: (sign ++ ds) ∧ (e = 0x65 ∨ e = 0x45) ∧ (sign = [] ∨ sign = [0x2D] ∨ sign = [0x2B]) ∧ Digits ds

/-- The number with these digits. -/
def decimal (s : PyStr) : Nat := s.foldl (fun n c => 10 * n + (c - 0x30)) 0

/-- `[ minus ] int`, and the integer it denotes. -/
def IntLiteral (s : PyStr) (i : Int) : Prop :=
  ∃ ds, IntPart ds ∧ ((s = ds ∧ i = decimal ds) ∨ (s = 0x2D :: ds ∧ i = -(decimal ds : Int)))

/-- `[ minus ] int [ frac ] [ exp ]`, with at least one of `frac` and `exp`. -/
def FloatLiteral (s : PyStr) : Prop :=
  ∃ m i f e, s = m ++ (i ++ (f ++ e)) ∧ (m = [] ∨ m = [0x2D]) ∧ IntPart i ∧ (f = [] ∨ Frac f) ∧ (e = [] ∨ Exp e) ∧ (f ≠ [] ∨ e ≠ [])

/-- `HEXDIG` (both cases) and its value. -/
def Hex (c n : Nat) : Prop :=
  (0x30 ≤ c ∧ c ≤ 0x39 ∧ n = c - 0x30) ∨ (0x41 ≤ c ∧ c ≤ 0x46 ∧ n = c - 0x41 + 10) ∨ (0x61 ≤ c ∧ c ≤ 0x66 ∧ n = c - 0x61 + 10)

/-- UTF-16 code units of a code point. -/
def utf16 (c : Nat) : List Nat := if c < 0x10000 then [c] else [0xD800 + (c - 0x10000) / 0x400, 0xDC00 + (c - 0x10000) % 0x400]

/-- `\"`, `\\`, `\/`, `\b`, `\f`, `\n`, `\r`, `\t` -/
def shortEscapes : List (Nat × Nat) :=
  [(0x22, 0x22), (0x5C, 0x5C), (0x2F, 0x2F), (0x62, 0x08), (0x66, 0x0C), (0x6E, 0x0A), (0x72, 0x0D), (0x74, 0x09)]

/-- `*char`: what is between the quotation marks, and the code units it denotes. -/
inductive Chars : PyStr → List Nat → Prop
  | nil : Chars [] []
  | unescaped {c : Nat} {s : PyStr} {u : List Nat} (h1 : 0x20 ≤ c) (h2 : c ≤ 0x10FFFF) (h3 : c ≠ 0x22) (h4 : c ≠ 0x5C)
      (h : Chars s u) : Chars (c :: s) (utf16 c ++ u)
  | short {e c : Nat} {s : PyStr} {u : List Nat} (he : (e, c) ∈ shortEscapes) (h : Chars s u) : Chars (0x5C :: e :: s) (c :: u)
  | unicode {a b c d w x y z : Nat} {s : PyStr} {u : List Nat} (ha : Hex a w) (hb : Hex b x) (hc : Hex c y) (hd : Hex d z)
      (h : Chars s u) : Chars (0x5C :: 0x75 :: a :: b :: c :: d :: s) ((((w * 16 + x) * 16 + y) * 16 + z) :: u)

/-- `string = quotation-mark *char quotation-mark` -/
def Str (s : PyStr) (u : List Nat) : Prop := ∃ body, s = 0x22 :: (body ++ [0x22]) ∧ Chars body u

mutual
/-- `value` -/
inductive Value (floatOf : PyStr → PyFloat) : PyStr → Tree → Prop
  | null : Value floatOf (lit "null") .null
  | true : Value floatOf (lit "true") (.bool true)
  | false : Value floatOf (lit "false") (.bool false)
  | int {s : PyStr} {i : Int} (h : IntLiteral s i) : Value floatOf s (.int i)
  | float {s : PyStr} (h : FloatLiteral s) : Value floatOf s (.float (floatOf s))
  | str {s : PyStr} {u : List Nat} (h : Str s u) : Value floatOf s (.str u)
  | emptyArr {w : PyStr} (h : Ws w) : Value floatOf (lit "[" ++ (w ++ lit "]")) (.arr [])
  | arr {s : PyStr} {l : List Tree} (h : Elements floatOf s l) : Value floatOf (lit "[" ++ (s ++ lit "]")) (.arr l)
  | emptyObj {w : PyStr} (h : Ws w) : Value floatOf (lit "{" ++ (w ++ lit "}")) (.obj [])
  | obj {s : PyStr} {l : List (List Nat × Tree)} (h : Members floatOf s l) : Value floatOf (lit "{" ++ (s ++ lit "}")) (.obj l)
/-- `value *( value-separator value )`, with the white space around the values -/
inductive Elements (floatOf : PyStr → PyFloat) : PyStr → List Tree → Prop
  | one {w s w' : PyStr} {t : Tree} (hw : Ws w) (h : Value floatOf s t) (hw' : Ws w') : Elements floatOf (w ++ (s ++ w')) [t]
  | more {w s w' r : PyStr} {t : Tree} {l : List Tree} (hw : Ws w) (h : Value floatOf s t) (hw' : Ws w') (hr : Elements floatOf r l) :
      Elements floatOf (w ++ (s ++ (w' ++ (lit "," ++ r)))) (t :: l)
/-- `member *( value-separator member )`, with the white space around keys and values -/
inductive Members (floatOf : PyStr → PyFloat) : PyStr → List (List Nat × Tree) → Prop
  | one {w k w1 w2 s w' : PyStr} {u : List Nat} {t : Tree} (hw : Ws w) (hk : Str k u) (h1 : Ws w1) (h2 : Ws w2) (h : Value floatOf s t)
      (hw' : Ws w') : Members floatOf (w ++ (k ++ (w1 ++ (lit ":" ++ (w2 ++ (s ++ w')))))) [(u, t)]
  | more {w k w1 w2 s w' r : PyStr} {u : List Nat} {t : Tree} {l : List (List Nat × Tree)} (hw : Ws w) (hk : Str k u) (h1 : Ws w1)
      (h2 : Ws w2) (h : Value floatOf s t) (hw' : Ws w') (hr : Members floatOf r l) :
      Members floatOf (w ++ (k ++ (w1 ++ (lit ":" ++ (w2 ++ (s ++ (w' ++ (lit "," ++ r)))))))) ((u, t) :: l)
end

/-- `JSON-text = ws value ws` -/
def JsonText (floatOf : PyStr → PyFloat) (text : PyStr) (t : Tree) : Prop :=
  ∃ w s w', text = w ++ (s ++ w') ∧ Ws w ∧ Value floatOf s t ∧ Ws w'

/-- The UTF-16 code units of a string. -/
def unitsOf (s : PyStr) : List Nat := s.flatMap utf16

end Genie.Rfc8259

namespace Genie.PyTree
open Rfc8259 (unitsOf)

mutual
/-- A Python tree as a JSON value. -/
def json : PyTree → Rfc8259.Tree
  | .none => .null
  | .int i => .int i
  | .float x => .float x
  | .str s => .str (unitsOf s)
  | .list l => .arr (jsonAll l)
  | .dict kvs => .obj (jsonItems kvs)
/-- `json`, for the elements of a list. -/
def jsonAll : List PyTree → List Rfc8259.Tree
  | [] => []
  | t :: ts => json t :: jsonAll ts
/-- `json`, for the items of a dict. -/
def jsonItems : List (PyStr × PyTree) → List (List Nat × Rfc8259.Tree)
  | [] => []
  | (k, t) :: ts => (unitsOf k, json t) :: jsonItems ts
end

mutual
/-- Every float of the tree is finite: neither NaN nor infinite. -/
def Finite : PyTree → Prop
  | .float x => F.isFinite x = true
  | .list l => FiniteAll l
  | .dict kvs => FiniteItems kvs
  | _ => True
/-- `Finite`, for the elements of a list. -/
def FiniteAll : List PyTree → Prop
  | [] => True
  | t :: ts => Finite t ∧ FiniteAll ts
/-- `Finite`, for the values of a dict. -/
def FiniteItems : List (PyStr × PyTree) → Prop
  | [] => True
  | (_, t) :: ts => Finite t ∧ FiniteItems ts
end

end Genie.PyTree

namespace Genie.Json

/-- What is assumed in addition of `float.__repr__` and of `float`: the representation of a finite number is a JSON number with fraction
or exponent, and reading it gives the number back. -/
structure FloatRepr.ReadBy (repr : FloatRepr) (floatOf : PyStr → PyFloat) : Prop where
  literal : ∀ x, F.isFinite x → Rfc8259.FloatLiteral (repr x)
  inverse : ∀ x, F.isFinite x → floatOf (repr x) = x

end Genie.Json
