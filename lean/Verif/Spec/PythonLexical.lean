import Verif.Spec.PythonStatements
/-!
# Python's tokens and lines

The lexical grammar of chapter 2 of the Python Language Reference, for the tokens that occur in `/repo/src/genieutils`, as relations between characters and
tokens, and between physical and logical lines.  No lexer is involved.

Narrower than Python: letters, strings and bytes are ASCII; strings are in single quotes, without prefix and without backslashes, bytes have only the escape
`\0`; floats are `0.0` and `1.0` (with any number of zeros); braces and `...` are no tokens (three points are three tokens, and no rule has two in a row).
-/

namespace Genie.Src.Text

/-- The number whose base-256 digits are the characters: `n!"…"`. -/
def code (cs : List Nat) : Nat := cs.foldl (fun n c => n * 256 + c) 0

/-- `[A-Za-z_]` -/
def Letter (c : Nat) : Prop := (65 ≤ c ∧ c ≤ 90) ∨ (97 ≤ c ∧ c ≤ 122) ∨ c = 95

/-- `[0-9]` -/
def Digit (c : Nat) : Prop := 48 ≤ c ∧ c ≤ 57

/-- Decimal digits with their value; there may be one underscore between two of them. -/
inductive Digits : Nat → List Nat → Prop where
  | one : Digit c → Digits (c - 48) [c]
  | more : Digits i u → Digit c → Digits (i * 10 + (c - 48)) (u ++ [c])
  | underscore : Digits i u → Digit c → Digits (i * 10 + (c - 48)) (u ++ [95, c])

/-- Decimal integers do not begin with a zero, except for zero. -/
def Decimal (i : Nat) (u : List Nat) : Prop := Digits i u ∧ (u.head? = some 48 → i = 0)

/-- A hexadecimal digit and its value. -/
inductive HexDigit : Nat → Nat → Prop where
  | digit : Digit c → HexDigit (c - 48) c
  | upper : 65 ≤ c → c ≤ 70 → HexDigit (c - 55) c
  | lower : 97 ≤ c → c ≤ 102 → HexDigit (c - 87) c

inductive HexDigits : Nat → List Nat → Prop where
  | one : HexDigit d c → HexDigits d [c]
  | more : HexDigits i u → HexDigit d c → HexDigits (i * 16 + d) (u ++ [c])

/-- A character that stands for itself in a string or bytes: not a quote, not a backslash, and ASCII. -/
def Plain (c : Nat) : Prop := c ≠ 39 ∧ c ≠ 92 ∧ c < 128

/-- What is between the quotes of bytes, with its value; `z`: the last thing is `\0`, after which there must not be an octal digit. -/
inductive BytesText : (z : Bool) → List Nat → List Nat → Prop where
  | nil : BytesText false [] []
  | char : BytesText z b u → Plain c → (z = true → ¬(48 ≤ c ∧ c ≤ 55)) → BytesText false (b ++ [c]) (u ++ [c])
  | zero : BytesText z b u → BytesText true (b ++ [0]) (u ++ [92, 48])

/-- The operators and delimiters; and the backslash, for the end of a line. -/
def operatorTexts : List (List Nat) :=
  ["+", "-", "*", "**", "/", "//", "%", "@", "<<", ">>", "&", "|", "^", "~", ":=", "<", ">", "<=", ">=", "==", "!=",
   "(", ")", "[", "]", ",", ":", ".", ";", "=", "->",
   "+=", "-=", "*=", "/=", "//=", "%=", "@=", "&=", "|=", "^=", ">>=", "<<=", "**=", "\\"].map fun s => s.toList.map Char.toNat

/-- The binary64 representation of `0.0` and `1.0`. -/
inductive FloatBits : Nat → Nat → Prop where
  | zero : FloatBits 0 0
  | one : FloatBits 1 0x3FF0000000000000

/-- `Lexeme t u`: the characters `u` are the token `t`. -/
inductive Lexeme : Tok → List Nat → Prop where
  /- identifiers and keywords -/
  | name : Letter c → (∀ d ∈ u, Letter d ∨ Digit d) → Lexeme (.name (code (c :: u))) (c :: u)
  | int : Decimal i u → Lexeme (.int i) u
  | hex : HexDigits i u → Lexeme (.int i) (48 :: 120 :: u)
  | float : Decimal i u → (∀ d ∈ v, d = 48) → FloatBits i bits → Lexeme (.float bits) (u ++ 46 :: v)
  | str : (∀ c ∈ u, Plain c) → Lexeme (.str u) (39 :: u ++ [39])
  | bytes : BytesText z b u → Lexeme (.bytes b) (98 :: 39 :: u ++ [39])
  | operator : u ∈ operatorTexts → Lexeme (.op (code u)) u

/-- A token ends here: it does not go on with the next character `c` (and is not followed by one with which Python would read it differently). -/
def Stops : Tok → Nat → Prop
  | .name _, c => ¬Letter c ∧ ¬Digit c ∧ c ≠ 39
  | .int _, c => ¬Letter c ∧ ¬Digit c ∧ c ≠ 46
  | .float _, c => ¬Letter c ∧ ¬Digit c
  | .str _, c => c ≠ 39
  | .bytes _, c => c ≠ 39
  | .op o, c => o ≠ n!"\\" ∧ ∀ u ∈ operatorTexts, code u = o → u ++ [c] ∉ operatorTexts
  | .bad, _ => False

/-- `Tokens cs ts`: the characters of a line are these tokens: with blanks between them, and perhaps a comment at the end. -/
inductive Tokens : List Nat → List Tok → Prop where
  | nil : Tokens [] []
  | blank : Tokens cs ts → Tokens (32 :: cs) ts
  | comment : Tokens (35 :: cs) []
  | token : Lexeme t u → (∀ c v, cs = c :: v → Stops t c) → Tokens cs ts → Tokens (u ++ cs) (t :: ts)

/-- `Nesting s ts s'`: the brackets in these tokens match, where `s` are the closing brackets that were missing before them, the innermost one first, and `s'`
those that are missing after them. -/
inductive Nesting : List Tok → List Tok → List Tok → Prop where
  | nil : Nesting s [] s
  | round : Nesting (sym n!")" :: s) ts s' → Nesting s (sym n!"(" :: ts) s'
  | square : Nesting (sym n!"]" :: s) ts s' → Nesting s (sym n!"[" :: ts) s'
  | close : t = sym n!")" ∨ t = sym n!"]" → Nesting s ts s' → Nesting (t :: s) (t :: ts) s'
  | other : t ∉ [sym n!"(", sym n!"[", sym n!")", sym n!"]"] → Nesting s ts s' → Nesting s (t :: ts) s'

/-- `Joined s ls ts`: these physical lines are one logical line (or what is left of one, if `s` are the closing brackets that are missing): a line goes on on the
next one after a backslash, and within brackets. -/
inductive Joined : List Tok → List (List Nat) → List Tok → Prop where
  | last : Tokens l ts → ts.getLast? ≠ some (sym n!"\\") → Nesting s ts [] → Joined s [l] ts
  | backslash : Tokens l (ts ++ [sym n!"\\"]) → Nesting s ts s' → Joined s' ls us → Joined s (l :: ls) (ts ++ us)
  | bracket : Tokens l ts → ts.getLast? ≠ some (sym n!"\\") → Nesting s ts s' → s' ≠ [] → Joined s' ls us → Joined s (l :: ls) (ts ++ us)

/-- How far a line is indented: the number of blanks at its beginning. -/
def Indented (n : Nat) (l : List Nat) : Prop := ∃ cs, l = List.replicate n 32 ++ cs ∧ cs.head? ≠ some 32

/-- `LogicalLines ls out`: the logical lines of a text; lines without tokens do not count. -/
inductive LogicalLines : List (List Nat) → List Line → Prop where
  | nil : LogicalLines [] []
  | empty : Tokens l [] → LogicalLines ls out → LogicalLines (l :: ls) out
  | line : ¬Tokens l [] → Joined [] (l :: ls) ts → Indented n l → LogicalLines rest out → LogicalLines (l :: ls ++ rest) ((n, ts) :: out)

end Genie.Src.Text
